import Verif.Props.Cbc

/-!
# C45, C46, C63, C66: output buffers, padding, left-over data
-/

namespace Verif

open Spec

/-- What the caller may rely on after a call with output buffer `ob`: never more bytes
written than the buffer has, after `CKR_OK` with a buffer the reported length is the
number of bytes written, and nothing is written otherwise. -/
def Respects (ob : OutBuf) (out : Out) : Prop :=
  match ob with
  | .buf n => out.wr.length ≤ n ∧ (out.rv = .ok → out.len = some out.wr.length) ∧
      (out.rv ≠ .ok → out.wr = [])
  | _ => out.wr = []

instance (ob : OutBuf) (out : Out) : Decidable (Respects ob out) := by
  cases ob <;> unfold Respects <;> infer_instance

/-- The session's CBC state as every Init leaves it, whatever was left over before:
a 16-byte register, a valid key, at most a block buffered. -/
structure CbcReady (s : OpSt) : Prop where
  part : s.cbc.part.length = 16
  sz : s.cbc.partSz ≤ 16
  reg : s.cbc.reg.length = 16
  key : s.cbc.key.length = 16 ∨ s.cbc.key.length = 24 ∨ s.cbc.key.length = 32

/-- `C_EncryptInit`/`C_DecryptInit` establish `CbcReady`. -/
theorem cbcReady_init {s s1 : OpSt} {o : Obj} {m : Mech} {iv : Bytes}
    (hm : m = .aesCbc ∨ m = .aesCbcPad) (hp : s.cbc.part.length = 16 ∧ s.cbc.partSz ≤ 16)
    (h : encryptInit s o m (.raw iv) = (s1, .ok) ∨ decryptInit s o m (.raw iv) = (s1, .ok)) :
    CbcReady s1 := by
  rcases hm with rfl | rfl <;> rcases h with h | h <;>
    (obtain ⟨rfl, h1, h2⟩ := cbcInit_ok h; exact ⟨hp.1, hp.2, h1, h2⟩)

/-- Update calls keep `CbcReady`. -/
theorem cbcReady_update (x : Crypto) (hx : x.aes.Lawful) (s : OpSt) (o : Obj) (c : UpdCall)
    (hm : s.mech = .aesCbc ∨ s.mech = .aesCbcPad) (h : CbcReady s) :
    CbcReady (encCalls x o s c).1 ∧ CbcReady (decCalls x o s c).1 := by
  obtain ⟨d, ob⟩ := c
  have hc := hx _ h.key
  obtain ⟨e1, e2, e3, w, e4, e5, e6⟩ := Cbc.encUpdate_spec x.aes s.cbc d ⟨h.part, h.sz⟩
  obtain ⟨r, d0, d1, d2, d3, v, d4, d5, d6⟩ := Cbc.decUpdate_spec x.aes s.cbc d ⟨h.part, h.sz⟩
  obtain ⟨q, p0, p1, p2, p3, u, p4, p5, p6⟩ := Cbc.padDecUpdate_spec x.aes s.cbc d ⟨h.part, h.sz⟩
  have l1 := cbcEnc_length hc s.cbc.reg w h.reg
  have l2 := cbcDec_length hc s.cbc.reg v h.reg
  have l3 := cbcDec_length hc s.cbc.reg u h.reg
  rw [← e5] at l1; rw [← d5] at l2; rw [← p5] at l3
  have k1 : CbcReady { s with cbc := (s.cbc.encUpdate x.aes d).2 } :=
    ⟨e1.part, e1.sz, l1.2, by simp only [e2]; exact h.key⟩
  have k2 : CbcReady { s with cbc := r.2 } := ⟨d1.part, d1.sz, l2.2, by simp only [d2]; exact h.key⟩
  have k3 : CbcReady { s with cbc := q.2 } := ⟨p1.part, p1.sz, l3.2, by simp only [p2]; exact h.key⟩
  constructor
  · rcases hm with hm | hm <;> cases ob <;>
      simp only [encCalls, encryptUpdate, withArgs, needInit, sized, finish, hm] <;>
      (repeat' split) <;> first | exact h | exact ⟨k1.part, k1.sz, k1.reg, k1.key⟩
  · rcases hm with hm | hm <;> cases ob <;>
      simp only [decCalls, decryptUpdate, withArgs, needInit, sized, finish, hm, d0, p0] <;>
      (repeat' split) <;> first | exact h | exact ⟨k2.part, k2.sz, k2.reg, k2.key⟩ | exact ⟨k3.part, k3.sz, k3.reg, k3.key⟩

/-- C45 for the Update calls, AES-CBC and AES-CBC-PAD, the AES-CBC Final calls and the
single-part AES-CBC calls on whole blocks. Missing: AES-CBC-PAD single-part and Final
calls, and single-part AES-CBC encryption of data that is not a whole number of
blocks; the code is wrong there (`c45_violated_*`). -/
theorem c45_cbc_buffers_partial (x : Crypto) (hx : x.aes.Lawful) (s : OpSt) (o : Obj) (d : Bytes)
    (ob : OutBuf) (rnd : Nat) (h : CbcReady s) :
    ((s.mech = .aesCbc ∨ s.mech = .aesCbcPad) →
      Respects ob (encryptUpdate x s (some o) (some d) ob).2 ∧
      Respects ob (decryptUpdate x s (some o) (some d) ob).2) ∧
    (s.mech = .aesCbc →
      Respects ob (encryptFinal x s (some o) ob).2 ∧ Respects ob (decryptFinal x s (some o) ob).2) ∧
    (s.mech = .aesCbc → d.length % 16 = 0 →
      Respects ob (encrypt x s (some o) (some d) ob rnd).2) ∧
    (s.mech = .aesCbc → Respects ob (decrypt x s (some o) (some d) ob rnd).2) := by
  have hc := hx _ h.key
  have hp := Cbc.pend_length ⟨h.part, h.sz⟩
  refine ⟨fun hm => ⟨?_, ?_⟩, fun hm => ⟨?_, ?_⟩, fun hm hd => ?_, fun hm => ?_⟩
  · obtain ⟨e1, e2, e3, w, e4, e5, e6⟩ := Cbc.encUpdate_spec x.aes s.cbc d ⟨h.part, h.sz⟩
    have l1 := cbcEnc_length hc s.cbc.reg w h.reg
    rw [← e5] at l1
    have l2 := congrArg List.length e6
    simp only [List.length_append, hp, Cbc.pend_length e1] at l2
    rcases hm with hm | hm <;> cases ob <;>
      simp only [encryptUpdate, withArgs, needInit, sized, finish, hm] <;>
      (repeat' split) <;> simp_all [Respects] <;> omega
  · obtain ⟨r, d0, d1, d2, d3, v, d4, d5, d6⟩ := Cbc.decUpdate_spec x.aes s.cbc d ⟨h.part, h.sz⟩
    obtain ⟨q, p0, p1, p2, p3, u, p4, p5, p6⟩ := Cbc.padDecUpdate_spec x.aes s.cbc d ⟨h.part, h.sz⟩
    have l2 := (cbcDec_length hc s.cbc.reg v h.reg).1
    have l3 := (cbcDec_length hc s.cbc.reg u h.reg).1
    rw [← d5] at l2; rw [← p5] at l3
    have m2 := congrArg List.length d6
    have m3 := congrArg List.length p6
    simp only [List.length_append, hp, Cbc.pend_length d1, Cbc.pend_length p1] at m2 m3
    have hq : 0 < d.length + s.cbc.partSz → 0 < q.2.partSz := by
      intro h0; apply p3; intro hnil
      have := congrArg List.length hnil
      rw [List.length_append, hp] at this; simp only [List.length_nil] at this; omega
    have hs := p1.sz
    simp only at l2 l3
    have b2 : r.1.length ≤ (d.length + s.cbc.partSz) / 16 * 16 := by omega
    have b3 : q.1.length ≤ padDecLen (d.length + s.cbc.partSz) := by
      unfold padDecLen; split
      · omega
      · split <;> omega
    rcases hm with hm | hm <;> cases ob <;>
      simp only [decryptUpdate, withArgs, needInit, sized, finish, hm, d0, p0] <;>
      (repeat' split) <;> simp_all [Respects] <;> omega
  · cases ob <;> simp only [encryptFinal, withArgs, needInit, cbcFinal, hm] <;>
      (repeat' split) <;> simp_all [Respects]
  · cases ob <;> simp only [decryptFinal, withArgs, needInit, cbcFinal, hm] <;>
      (repeat' split) <;> simp_all [Respects]
  · have l1 := (cbcEnc_length hc s.cbc.reg d h.reg).1
    cases ob <;> simp only [encrypt, withArgs, needInit, sized, hm, Cbc.encrypt, Cbc.rawEnc] <;>
      (repeat' split) <;> simp_all [Respects] <;> omega
  · have l1 := (cbcDec_length hc s.cbc.reg d h.reg).1
    by_cases hd : d.length % 16 = 0 <;> cases ob <;>
      simp only [decrypt, withArgs, needInit, sized, hm, Cbc.decrypt, Cbc.rawDec, hd, if_true, if_false,
        Option.map_some, Option.map_none] <;>
      (repeat' split) <;> simp_all [Respects] <;> omega

/-- Non-vacuity of C45: an initialised session meets `CbcReady`. -/
example : CbcReady (encryptInit {} Demo.key .aesCbc (.raw Demo.iv)).1 :=
  cbcReady_init (s := {}) (m := .aesCbc) (o := Demo.key) (iv := Demo.iv) (.inl rfl) ⟨rfl, by decide⟩
    (.inl (by decide))

/-- C45 fails for AES-CBC-PAD: single-part encryption of 16 bytes into a 16-byte
buffer writes 32 bytes. -/
theorem c45_violated_pad_encrypt :
    ∃ (x : Crypto) (o : Obj) (iv d : Bytes) (n : Nat), x.aes.Lawful ∧
      (encryptInit {} o .aesCbcPad (.raw iv)).2 = .ok ∧
      ¬ Respects (.buf n)
        (encrypt x (encryptInit {} o .aesCbcPad (.raw iv)).1 (some o) (some d) (.buf n) 0).2 :=
  ⟨Demo.x, Demo.key, Demo.iv, List.replicate 16 1, 16, Demo.aes_lawful, by decide, by decide⟩

/-- C45 fails for AES-CBC-PAD: single-part decryption does not look at the size of
the buffer: 16 bytes into a buffer of 0. -/
theorem c45_violated_pad_decrypt :
    ∃ (x : Crypto) (o : Obj) (iv d : Bytes) (n : Nat), x.aes.Lawful ∧
      (decryptInit {} o .aesCbcPad (.raw iv)).2 = .ok ∧
      ¬ Respects (.buf n)
        (decrypt x (decryptInit {} o .aesCbcPad (.raw iv)).1 (some o) (some d) (.buf n) 0).2 :=
  ⟨Demo.x, Demo.key, Demo.iv, List.replicate 16 1, 0, Demo.aes_lawful, by decide, by decide⟩

/-- C45 fails for AES-CBC-PAD: `C_EncryptFinal` writes a block and does not report
the length. -/
theorem c45_violated_pad_final :
    ∃ (x : Crypto) (o : Obj) (iv : Bytes) (n : Nat), x.aes.Lawful ∧
      (encryptInit {} o .aesCbcPad (.raw iv)).2 = .ok ∧
      ¬ Respects (.buf n)
        (encryptFinal x (encryptInit {} o .aesCbcPad (.raw iv)).1 (some o) (.buf n)).2 :=
  ⟨Demo.x, Demo.key, Demo.iv, 16, Demo.aes_lawful, by decide, by decide⟩

/-- C45 fails for AES-CBC-PAD: `C_DecryptFinal` does not look at the size of the
buffer. -/
theorem c45_violated_pad_decrypt_final :
    ∃ (x : Crypto) (o : Obj) (iv d : Bytes) (n : Nat), x.aes.Lawful ∧
      (decryptInit {} o .aesCbcPad (.raw iv)).2 = .ok ∧
      let s1 := (decryptUpdate x (decryptInit {} o .aesCbcPad (.raw iv)).1 (some o) (some d) (.buf 0)).1
      ¬ Respects (.buf n) (decryptFinal x s1 (some o) (.buf n)).2 :=
  ⟨Demo.x, Demo.key, Demo.iv, List.replicate 16 1, 0, Demo.aes_lawful, by decide, by decide⟩

/-- C45 fails for AES-CBC: single-part encryption of 17 bytes reports 17 bytes and
writes 16. -/
theorem c45_violated_unaligned :
    ∃ (x : Crypto) (o : Obj) (iv d : Bytes) (n : Nat), x.aes.Lawful ∧
      (encryptInit {} o .aesCbc (.raw iv)).2 = .ok ∧
      ¬ Respects (.buf n)
        (encrypt x (encryptInit {} o .aesCbc (.raw iv)).1 (some o) (some d) (.buf n) 0).2 :=
  ⟨Demo.x, Demo.key, Demo.iv, List.replicate 17 1, 32, Demo.aes_lawful, by decide, by decide⟩

/-- What padding means for a decrypted text: it ends in `k` bytes of value `k`,
`1 ≤ k ≤ 16` (`Spec.IsPkcs7`). C46 fails: a ciphertext whose decryption does not end
in valid padding is decrypted with `CKR_OK`, single-part and multi-part. -/
theorem c46_violated :
    ∃ (x : Crypto) (o : Obj) (iv ct : Bytes), x.aes.Lawful ∧
      (decryptInit {} o .aesCbcPad (.raw iv)).2 = .ok ∧ ct.length % 16 = 0 ∧
      (∀ m, (cbcDec (x.aes.dec o.symm) iv ct).1 ≠ pkcs7Pad m) ∧
      let s1 := (decryptInit {} o .aesCbcPad (.raw iv)).1
      (decrypt x s1 (some o) (some ct) (.buf 16) 0).2.rv = .ok ∧
      (decryptFinal x (decryptUpdate x s1 (some o) (some ct) (.buf 16)).1 (some o) (.buf 16)).2.rv = .ok := by
  refine ⟨Demo.x, Demo.key, Demo.iv, List.replicate 15 1 ++ [3], Demo.aes_lawful, by decide, by decide, ?_,
    by decide, by decide⟩
  intro m h
  have hb : (cbcDec (Demo.x.aes.dec Demo.key.symm) Demo.iv (List.replicate 15 1 ++ [3])).1 =
      List.replicate 15 1 ++ [3] := by decide
  rw [hb] at h
  have hl := congrArg List.length h
  have hm : m.length = 13 := by
    have h3 : ((List.replicate 15 (1 : UInt8) ++ [3]).getD 15 0) = (pkcs7Pad m).getD 15 0 := by rw [h]
    simp [pkcs7Pad] at hl
    have h4 : m.length ≤ 15 := by omega
    have h5 : (pkcs7Pad m).getD 15 0 = UInt8.ofNat (16 - m.length % 16) := by
      simp only [pkcs7Pad, List.getD]
      rw [List.getElem?_append_right (by omega), List.getElem?_replicate, if_pos (by omega)]; rfl
    rw [h5] at h3
    have h6 := congrArg UInt8.toNat h3
    simp at h6
    omega
  have h7 : ((List.replicate 15 (1 : UInt8) ++ [3]).getD 14 0) = (pkcs7Pad m).getD 14 0 := by rw [h]
  have h8 : (pkcs7Pad m).getD 14 0 = 3 := by
    simp only [pkcs7Pad, List.getD]
    rw [List.getElem?_append_right (by omega), List.getElem?_replicate, if_pos (by omega), hm]; rfl
  rw [h8] at h7
  exact absurd h7 (by decide)

/-- C46, what does hold: the only texts AES-CBC-PAD decryption refuses are those whose
length is not a positive number of blocks; every other ciphertext is accepted. (So no
claim about padding can be derived from `CKR_OK`.) -/
theorem c46_accepts_iff (x : Crypto) (s s1 : OpSt) (o : Obj) (iv : Bytes) (calls : List UpdCall) (n : Nat)
    (hinit : decryptInit s o .aesCbcPad (.raw iv) = (s1, .ok)) (hf : NothingBuffered s) :
    let r := runCalls (decCalls x o) s1 calls
    (decryptFinal x r.1 (some o) (.buf n)).2.rv = .ok ↔
      (accepted calls r.2).length % 16 = 0 ∧ accepted calls r.2 ≠ [] := by
  have h := runCalls_inv (decCalls x o) _ (fun s acc out c => decCalls_step (Or.inr ⟨rfl, rfl⟩) s acc out c)
    calls _ [] [] (midDec_init x hinit hf)
  simp only [List.nil_append] at h
  obtain ⟨h1, h2, h3, _, hpos, h5, w, hw, hacc, hout⟩ := h
  intro r
  change r.1.mech = _ at h1
  change r.1.init = _ at h2
  change r.1.cbc.Ok at h3
  change accepted calls r.2 = w ++ r.1.cbc.pend at hacc
  have hlen := congrArg List.length hacc
  rw [List.length_append, Cbc.pend_length h3] at hlen
  have hpos : accepted calls r.2 ≠ [] → 0 < r.1.cbc.partSz := hpos rfl
  have hsz := h3.sz
  have hpart := h3.part
  simp only [decryptFinal, withArgs, h1, needInit, h2]
  by_cases hp : r.1.cbc.partSz = 16
  · have hne : accepted calls r.2 ≠ [] := by intro h0; rw [h0] at hlen; simp at hlen; omega
    have hl : List.length (r.1.cbc.part.take 16) % 16 = 0 := by
      rw [List.length_take, hpart]; rfl
    simp only [Cbc.padDecFinal, hp]
    rw [Cbc.rawDec_ok _ _ _ hl]
    simp [hne, hlen, hp]; omega
  · simp only [ne_eq, hp, not_false_eq_true, if_true]
    constructor
    · intro h0; simp at h0
    · intro ⟨h0, hne⟩
      have := hpos hne
      omega

/-- C63 fails: an encryption begun after another one was left unfinished in the same
session outputs the other one's data. The new operation is given 11 bytes and writes a
block made of the 5 bytes of the abandoned operation and those 11. -/
theorem c63_violated :
    ∃ (x : Crypto) (o : Obj) (iv d0 d : Bytes), x.aes.Lawful ∧
      let s1 := (encryptInit {} o .aesCbc (.raw iv)).1
      let s2 := (encryptUpdate x s1 (some o) (some d0) (.buf 16)).1
      let r := encryptInit s2 o .aesCbc (.raw iv)
      r.2 = .ok ∧ d.length < 16 ∧
      (encryptUpdate x r.1 (some o) (some d) (.buf 16)).2.wr =
        (cbcEnc (x.aes.enc o.symm) iv (d0 ++ d)).1 ∧
      (encryptUpdate x r.1 (some o) (some d) (.buf 16)).2.wr ≠ (cbcEnc (x.aes.enc o.symm) iv d).1 :=
  ⟨Demo.x, Demo.key, Demo.iv, List.replicate 5 9, List.replicate 11 1, Demo.aes_lawful,
    by decide, by decide, by decide, by decide⟩

/-- C63, what holds: whatever was done before, an operation begun when nothing is
buffered depends only on the key, the IV and the data handed over; stated for two
sessions with arbitrary pasts. -/
theorem c63_fresh_start_partial (x : Crypto) (s s' s1 s1' : OpSt) (o : Obj) (m : Mech) (iv : Bytes)
    (calls : List UpdCall) (hm : m = .aesCbc ∨ m = .aesCbcPad)
    (h : encryptInit s o m (.raw iv) = (s1, .ok)) (h' : encryptInit s' o m (.raw iv) = (s1', .ok))
    (hf : NothingBuffered s) (hf' : NothingBuffered s')
    (hacc : accepted calls (runCalls (encCalls x o) s1 calls).2 =
      accepted calls (runCalls (encCalls x o) s1' calls).2) :
    produced (runCalls (encCalls x o) s1 calls).2 = produced (runCalls (encCalls x o) s1' calls).2 := by
  rcases hm with rfl | rfl
  · rw [(c43_encrypt_split x s s1 o iv calls h hf).1, (c43_encrypt_split x s' s1' o iv calls h' hf').1, hacc]
  · have key : ∀ (s s1 : OpSt), encryptInit s o .aesCbcPad (.raw iv) = (s1, .ok) → NothingBuffered s →
        produced (runCalls (encCalls x o) s1 calls).2 =
          (cbcEnc (x.aes.enc o.symm) iv (accepted calls (runCalls (encCalls x o) s1 calls).2)).1 := by
      intro s s1 h hf
      have hh := runCalls_inv (encCalls x o) _ (fun s acc out c => encCalls_step (Or.inr ⟨rfl, rfl⟩) s acc out c)
        calls _ [] [] (midEnc_init x h hf)
      simp only [List.nil_append] at hh
      obtain ⟨h1, h2, h3, h4, h5, w, hw, hacc, hout⟩ := hh
      have hlt : (Cbc.pend (runCalls (encCalls x o) s1 calls).1.cbc).length < 16 := by
        rw [Cbc.pend_length h3]; exact h4
      rw [hacc, cbcEnc_tail _ _ _ _ hw hlt, ← hout]
    rw [key s s1 h hf, key s' s1' h' hf', hacc]

/-- C66 fails: `C_Decrypt` with AES-CBC-PAD and no data at all returns bytes of the
text decrypted before it in the same session. -/
theorem c66_violated :
    ∃ (x : Crypto) (o : Obj) (iv ct : Bytes), x.aes.Lawful ∧
      let s1 := (decryptInit {} o .aesCbcPad (.raw iv)).1
      let s2 := (decrypt x s1 (some o) (some ct) (.buf 16) 0).1
      let r := decryptInit s2 o .aesCbcPad (.raw iv)
      r.2 = .ok ∧
      (decrypt x r.1 (some o) (some []) (.buf 16) 0).2.rv = .ok ∧
      (decrypt x r.1 (some o) (some []) (.buf 16) 0).2.wr = ct.take 8 ∧ ct.take 8 ≠ [] :=
  ⟨Demo.x, Demo.key, Demo.iv, (List.replicate 8 65 ++ List.replicate 8 8), Demo.aes_lawful,
    by decide, by decide, by decide, by decide⟩

/-- The last block taken off. -/
theorem stripped_block (a b : Bytes) (hb : b.length = 16) :
    stripped (a ++ b) = a ++ b.take (16 - if (b.getD 15 0).toNat ≤ 16 then (b.getD 15 0).toNat else 0) := by
  have h1 : (a ++ b).getD ((a ++ b).length - 1) 0 = b.getD 15 0 := by
    rw [List.length_append, hb]
    simp only [List.getD]
    rw [List.getElem?_append_right (by omega)]
    congr 2
    omega
  unfold stripped
  rw [h1]
  dsimp only
  have : ∀ k, k ≤ 16 → (a ++ b).take ((a ++ b).length - k) = a ++ b.take (16 - k) := by
    intro k hk
    rw [List.length_append, hb, List.take_append, List.take_of_length_le (by omega)]
    congr 2
    omega
  split
  · rename_i hk; exact this _ hk
  · exact this 0 (by omega)

/-- C66, multi-part decryption: in a session in which nothing is buffered, for every sequence of
`C_DecryptUpdate` calls followed by `C_DecryptFinal`, what is written is determined by key, IV
and the data handed over: the CBC decryption without its padding if the data is a positive
number of blocks; otherwise the end is refused and writes nothing. -/
theorem c66_parts_partial (x : Crypto) (hx : x.aes.Lawful) (s s1 : OpSt) (o : Obj) (iv : Bytes) (calls : List UpdCall)
    (n : Nat) (hinit : decryptInit s o .aesCbcPad (.raw iv) = (s1, .ok)) (hf : NothingBuffered s) :
    let r := runCalls (decCalls x o) s1 calls
    let fin := decryptFinal x r.1 (some o) (.buf n)
    let data := accepted calls r.2
    if data.length % 16 = 0 ∧ data ≠ [] then
      fin.2.rv = .ok ∧ produced r.2 ++ fin.2.wr = stripped (cbcDec (x.aes.dec o.symm) iv data).1
    else fin.2.rv = .dataLenRange ∧ fin.2.wr = [] := by
  obtain ⟨_, hiv, hkey⟩ := cbcInit_ok hinit
  have hc := hx _ hkey
  have h := runCalls_inv (decCalls x o) _ (fun s acc out c => decCalls_step (Or.inr ⟨rfl, rfl⟩) s acc out c)
    calls _ [] [] (midDec_init x hinit hf)
  simp only [List.nil_append] at h
  obtain ⟨h1, h2, h3, _, hpos, h5, w, hw, hacc, hout⟩ := h
  intro r fin data
  change r.1.mech = _ at h1
  change r.1.init = _ at h2
  change r.1.cbc.Ok at h3
  change r.1.cbc.key = o.symm at h5
  change data = w ++ r.1.cbc.pend at hacc
  change (produced r.2, r.1.cbc.reg) = cbcDec (x.aes.dec o.symm) iv w at hout
  have hlen := congrArg List.length hacc
  rw [List.length_append, Cbc.pend_length h3] at hlen
  have hpos : data ≠ [] → 0 < r.1.cbc.partSz := hpos rfl
  have hsz := h3.sz
  by_cases h16 : r.1.cbc.partSz = 16
  · have hne : data ≠ [] := by intro h0; rw [h0] at hlen; simp at hlen; omega
    rw [if_pos ⟨by omega, hne⟩]
    have hpart : r.1.cbc.pend = r.1.cbc.part := by
      rw [Cbc.pend, h16]; exact List.take_of_length_le (by rw [h3.part]; exact Nat.le_refl _)
    have hreg : r.1.cbc.reg.length = 16 := by
      have h' := cbcDec_length hc iv w hiv
      rw [← hout] at h'; exact h'.2
    have hblk : (cbcDec (x.aes.dec r.1.cbc.key) r.1.cbc.reg r.1.cbc.part).1.length = 16 := by
      rw [h5, (cbcDec_length hc _ _ hreg).1, h3.part]
    have hall : (cbcDec (x.aes.dec o.symm) iv data).1 =
        produced r.2 ++ (cbcDec (x.aes.dec r.1.cbc.key) r.1.cbc.reg r.1.cbc.part).1 := by
      have h' := cbcDec_append (x.aes.dec o.symm) iv w r.1.cbc.part hw
      rw [← hout] at h'
      rw [hacc, hpart, h', h5]
    obtain ⟨hf1, _, _⟩ := padDecFinal_full x.aes r.1.cbc h3.part h16 hblk
    rw [hall, stripped_block _ _ hblk]
    simp only [fin, decryptFinal, withArgs, h1, needInit, h2, h16]
    simp [hf1]
  · have hno : ¬ (data.length % 16 = 0 ∧ data ≠ []) := by
      rintro ⟨h0, hne⟩
      have := hpos hne
      omega
    rw [if_neg hno]
    simp only [fin, decryptFinal, withArgs, h1, needInit, h2]
    simp [h16]

/-- C66, single-part decryption of at least one byte: `C_Decrypt` is a `C_DecryptUpdate` of all
the data and a `C_DecryptFinal`, and what it writes is determined by key, IV and data. -/
theorem c66_single_partial (x : Crypto) (hx : x.aes.Lawful) (s s1 : OpSt) (o : Obj) (iv d : Bytes) (n rnd : Nat)
    (hinit : decryptInit s o .aesCbcPad (.raw iv) = (s1, .ok)) (hf : NothingBuffered s) (hd : d ≠ []) :
    let r := (decrypt x s1 (some o) (some d) (.buf n) rnd).2
    if d.length % 16 = 0 then r.rv = .ok ∧ r.wr = stripped (cbcDec (x.aes.dec o.symm) iv d).1
    else r.rv = .functionFailed ∧ r.wr = [] := by
  obtain ⟨_, hiv, hkey⟩ := cbcInit_ok hinit
  have hc := hx _ hkey
  have hm := midDec_init x hinit hf
  have h1 := hm.mech
  have h2 := hm.init
  have key : decrypt x s1 (some o) (some d) (.buf n) rnd =
      finish { s1 with cbc := (s1.cbc.padDecrypt x.aes d).2.1,
                       init := if (s1.cbc.padDecrypt x.aes d).2.2 then .none else s1.init } (s1.cbc.padDecrypt x.aes d).1 := by
    simp [decrypt, withArgs, h1, needInit, h2]
  rw [key]
  obtain ⟨_, _, h4, hreg', h6, _⟩ := cbcInit_fresh hinit hf
  have hp0 : s1.cbc.pend = [] := by rw [Cbc.pend, h4.2]; rfl
  obtain ⟨r, e, hok, hk, hpos, w, hw, hout, hacc⟩ := Cbc.padDecUpdate_spec x.aes s1.cbc d hm.ok
  rw [hp0, List.nil_append] at hpos hacc
  rw [h6, hreg'] at hout
  rw [h6] at hk
  have hpos := hpos hd
  have hlen := congrArg List.length hacc
  rw [List.length_append, Cbc.pend_length hok] at hlen
  have hsz := hok.sz
  simp only [Cbc.padDecrypt, e]
  by_cases h16 : r.2.partSz = 16
  · rw [if_pos (by omega)]
    have hpart : r.2.pend = r.2.part := by
      rw [Cbc.pend, h16]; exact List.take_of_length_le (by rw [hok.part]; exact Nat.le_refl _)
    have hreg : r.2.reg.length = 16 := by
      have h' := cbcDec_length hc iv w hiv
      rw [← hout] at h'; exact h'.2
    have hblk : (cbcDec (x.aes.dec r.2.key) r.2.reg r.2.part).1.length = 16 := by
      rw [hk, (cbcDec_length hc _ _ hreg).1, hok.part]
    have hall : (cbcDec (x.aes.dec o.symm) iv d).1 = r.1 ++ (cbcDec (x.aes.dec r.2.key) r.2.reg r.2.part).1 := by
      have h' := cbcDec_append (x.aes.dec o.symm) iv w r.2.part hw
      rw [← hout] at h'
      rw [hacc, hpart, h', hk]
    obtain ⟨hf1, _, _⟩ := padDecFinal_full x.aes r.2 hok.part h16 hblk
    rw [hall, stripped_block _ _ hblk, hf1]
    exact ⟨rfl, rfl⟩
  · rw [if_neg (by omega)]
    have hl : ¬ (r.2.part.take r.2.partSz).length % 16 = 0 := by
      rw [List.length_take, hok.part]; omega
    have : r.2.rawDec x.aes (r.2.part.take r.2.partSz) = none := by simp only [Cbc.rawDec, if_neg hl]
    simp only [Cbc.padDecFinal, this]
    exact ⟨rfl, rfl⟩

/-- Non-vacuity: 32 bytes in two parts; the padding found is 8 bytes long. -/
example :
    let calls : List UpdCall := [(List.replicate 20 8, .buf 16), (List.replicate 12 8, .buf 16)]
    let r := decryptInit {} Demo.key .aesCbcPad (.raw (List.replicate 16 0))
    r.2 = .ok ∧ NothingBuffered ({} : OpSt) ∧
    (accepted calls (runCalls (decCalls Demo.x Demo.key) r.1 calls).2).length = 32 := by
  refine ⟨by decide, ⟨rfl, rfl⟩, by decide⟩

end Verif
