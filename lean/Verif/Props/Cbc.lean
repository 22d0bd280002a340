import Verif.Proofs.Stream
import Verif.Proofs.Demo

/-!
# C43-C46, C63, C66: AES-CBC and AES-CBC-PAD

`encCalls`/`decCalls` are `C_EncryptUpdate`/`C_DecryptUpdate`; `accepted` is the data
handed over by a sequence of such calls and `produced` what they wrote
(`Verif.Spec.Stream`).  `Spec.cbcEnc`, `Spec.cbcDec`, `Spec.pkcs7Pad` are the standard
definitions (`Verif.Spec.Cbc`).
-/

namespace Verif

open Spec

/-- C43, encryption: after a successful `C_EncryptInit` and for every sequence of
`C_EncryptUpdate` calls, the bytes written are the CBC encryption of the whole blocks
of the data handed over, and `C_EncryptFinal` succeeds exactly when the data is a
whole number of blocks. -/
theorem c43_encrypt_split (x : Crypto) (s s1 : OpSt) (o : Obj) (iv : Bytes) (calls : List UpdCall)
    (hinit : encryptInit s o .aesCbc (.raw iv) = (s1, .ok)) (hf : NothingBuffered s) :
    let r := runCalls (encCalls x o) s1 calls
    let data := accepted calls r.2
    produced r.2 = (cbcEnc (x.aes.enc o.symm) iv data).1 ∧
    ∀ n, (encryptFinal x r.1 (some o) (.buf n)).2.rv =
      if data.length % 16 = 0 then .ok else .dataLenRange := by
  have h := runCalls_inv (encCalls x o) _ (fun s acc out c => encCalls_step (Or.inl ⟨rfl, rfl⟩) s acc out c)
    calls _ [] [] (midEnc_init x hinit hf)
  simp only [List.nil_append] at h
  obtain ⟨h1, h2, h3, h4, h5, w, hw, hacc, hout⟩ := h
  refine ⟨?_, fun n => ?_⟩
  · have hlt : (Cbc.pend (runCalls (encCalls x o) s1 calls).1.cbc).length < 16 := by
      rw [Cbc.pend_length h3]; exact h4
    rw [hacc, cbcEnc_tail _ _ _ _ hw hlt, ← hout]
  · have hlen := congrArg List.length hacc
    rw [List.length_append, Cbc.pend_length h3] at hlen
    rw [hlen]
    simp only [encryptFinal, withArgs, h1, needInit, h2, cbcFinal]
    by_cases hp : (runCalls (encCalls x o) s1 calls).1.cbc.partSz = 0
    · simp [hp, hw]
    · simp [hp]; omega

/-- C43, decryption. -/
theorem c43_decrypt_split (x : Crypto) (s s1 : OpSt) (o : Obj) (iv : Bytes) (calls : List UpdCall)
    (hinit : decryptInit s o .aesCbc (.raw iv) = (s1, .ok)) (hf : NothingBuffered s) :
    let r := runCalls (decCalls x o) s1 calls
    let data := accepted calls r.2
    produced r.2 = (cbcDec (x.aes.dec o.symm) iv data).1 ∧
    ∀ n, (decryptFinal x r.1 (some o) (.buf n)).2.rv =
      if data.length % 16 = 0 then .ok else .dataLenRange := by
  have h := runCalls_inv (decCalls x o) _ (fun s acc out c => decCalls_step (Or.inl ⟨rfl, rfl⟩) s acc out c)
    calls _ [] [] (midDec_init x hinit hf)
  simp only [List.nil_append] at h
  obtain ⟨h1, h2, h3, h4, _, h5, w, hw, hacc, hout⟩ := h
  refine ⟨?_, fun n => ?_⟩
  · have hlt : (Cbc.pend (runCalls (decCalls x o) s1 calls).1.cbc).length < 16 := by
      rw [Cbc.pend_length h3]; exact h4 rfl
    rw [hacc, cbcDec_tail _ _ _ _ hw hlt, ← hout]
  · have hlen := congrArg List.length hacc
    have h4 := h4 rfl
    rw [List.length_append, Cbc.pend_length h3] at hlen
    rw [hlen]
    simp only [decryptFinal, withArgs, h1, needInit, h2, cbcFinal]
    by_cases hp : (runCalls (decCalls x o) s1 calls).1.cbc.partSz = 0
    · simp [hp, hw]
    · simp [hp]; omega

/-- C43: an Update call of a CBC operation whose buffer has room for the part and 15
more bytes is never refused, so every split can be carried out. -/
theorem c43_update_accepted (x : Crypto) (s : OpSt) (o : Obj) (d : Bytes) (n : Nat)
    (hs : s.cbc.part.length = 16 ∧ s.cbc.partSz < 16) (hn : d.length + 15 ≤ n) :
    (s.mech = .aesCbc → s.init = .aesCbcEnc → (encCalls x o s (d, .buf n)).2.rv = .ok) ∧
    (s.mech = .aesCbc → s.init = .aesCbcDec → (decCalls x o s (d, .buf n)).2.rv = .ok) := by
  have hk : ¬ (d.length + s.cbc.partSz) / 16 * 16 > n := by omega
  constructor
  · intro h1 h2
    rw [encCalls_eq (Or.inl ⟨rfl, rfl⟩) h1 h2]; simp [hk]
  · intro h1 h2
    rw [decCalls_eq_cbc h1 h2]
    obtain ⟨r, e, _⟩ := Cbc.decUpdate_spec x.aes s.cbc d ⟨hs.1, by omega⟩
    simp [hk, e]

/-- C43: the single-part functions give the same on whole blocks. -/
theorem c43_single_part (x : Crypto) (s s1 : OpSt) (o : Obj) (iv d : Bytes) (n : Nat) (rnd : Nat)
    (hd : d.length % 16 = 0) (hn : d.length ≤ n) :
    (encryptInit s o .aesCbc (.raw iv) = (s1, .ok) →
      (encrypt x s1 (some o) (some d) (.buf n) rnd).2 =
        { rv := .ok, wr := (cbcEnc (x.aes.enc o.symm) iv d).1, len := some d.length }) ∧
    (decryptInit s o .aesCbc (.raw iv) = (s1, .ok) →
      (decrypt x s1 (some o) (some d) (.buf n) rnd).2 =
        { rv := .ok, wr := (cbcDec (x.aes.dec o.symm) iv d).1, len := some d.length }) := by
  have hk : ¬ d.length > n := by omega
  constructor
  · intro h
    obtain ⟨rfl, _, _⟩ := cbcInit_ok h
    simp [encrypt, withArgs, needInit, sized, hk, Cbc.encrypt, Cbc.rawEnc]
  · intro h
    obtain ⟨rfl, _, _⟩ := cbcInit_ok h
    simp [decrypt, withArgs, needInit, sized, hk, Cbc.decrypt, Cbc.rawDec, hd]

/-- The hypothesis `NothingBuffered` holds in a new session, and again after
`C_EncryptFinal`, `C_DecryptFinal` of a CBC operation with a buffer. -/
theorem c43_fresh_after_final (x : Crypto) (o : Obj) (n : Nat) :
    NothingBuffered ({} : OpSt) ∧
    (∀ s : OpSt, s.cbc.part.length = 16 → s.mech = .aesCbc → s.init = .aesCbcEnc →
      NothingBuffered (encryptFinal x s (some o) (.buf n)).1) ∧
    (∀ s : OpSt, s.cbc.part.length = 16 → s.mech = .aesCbc → s.init = .aesCbcDec →
      NothingBuffered (decryptFinal x s (some o) (.buf n)).1) := by
  refine ⟨⟨rfl, rfl⟩, fun s h h1 h2 => ?_, fun s h h1 h2 => ?_⟩
  · simp only [encryptFinal, withArgs, needInit, h1, h2, cbcFinal]
    by_cases hp : s.cbc.partSz = 0 <;> simp [hp, NothingBuffered, Cbc.final, h]
  · simp only [decryptFinal, withArgs, needInit, h1, h2, cbcFinal]
    by_cases hp : s.cbc.partSz = 0 <;> simp [hp, NothingBuffered, Cbc.final, h]

/-- Non-vacuity of C43: 20 bytes in parts of 5, 11 and 4, with a query and a refused
call in between. -/
example :
    let calls : List UpdCall :=
      [(List.replicate 5 1, .buf 0), (List.replicate 11 2, .query 0), (List.replicate 11 2, .buf 3),
       (List.replicate 11 2, .buf 16), (List.replicate 4 3, .buf 0)]
    let s1 := (encryptInit {} Demo.key .aesCbc (.raw Demo.iv)).1
    (encryptInit {} Demo.key .aesCbc (.raw Demo.iv)).2 = .ok ∧
    accepted calls (runCalls (encCalls Demo.x Demo.key) s1 calls).2 =
      List.replicate 5 1 ++ List.replicate 11 2 ++ List.replicate 4 3 ∧
    (produced (runCalls (encCalls Demo.x Demo.key) s1 calls).2).length = 16 := by decide

/-- C44, encryption: for every sequence of `C_EncryptUpdate` calls followed by
`C_EncryptFinal` with room for a block, the bytes written are the CBC encryption of
the padded data. -/
theorem c44_encrypt_split (x : Crypto) (s s1 : OpSt) (o : Obj) (iv : Bytes) (calls : List UpdCall)
    (n : Nat) (hn : 16 ≤ n)
    (hinit : encryptInit s o .aesCbcPad (.raw iv) = (s1, .ok)) (hf : NothingBuffered s) :
    let r := runCalls (encCalls x o) s1 calls
    let fin := encryptFinal x r.1 (some o) (.buf n)
    fin.2.rv = .ok ∧
    produced r.2 ++ fin.2.wr = (cbcEnc (x.aes.enc o.symm) iv (pkcs7Pad (accepted calls r.2))).1 := by
  have h := runCalls_inv (encCalls x o) _ (fun s acc out c => encCalls_step (Or.inr ⟨rfl, rfl⟩) s acc out c)
    calls _ [] [] (midEnc_init x hinit hf)
  simp only [List.nil_append] at h
  obtain ⟨h1, h2, h3, h4, h5, w, hw, hacc, hout⟩ := h
  have hk : ¬ 16 > n := by omega
  intro r fin
  have hfin : fin.2 = { rv := .ok, wr := (r.1.cbc.padEncFinal x.aes).1 } := by
    simp only [fin, encryptFinal, withArgs, r, h1, needInit, h2, sized, hk]
    simp
  refine ⟨by rw [hfin], ?_⟩
  rw [hfin]
  have hlen : (accepted calls r.2).length % 16 = r.1.cbc.partSz := by
    have := congrArg List.length hacc
    rw [List.length_append, Cbc.pend_length h3] at this
    show (accepted calls (runCalls (encCalls x o) s1 calls).2).length % 16 =
      (runCalls (encCalls x o) s1 calls).1.cbc.partSz
    omega
  have hpad : pkcs7Pad (accepted calls r.2) =
      w ++ (r.1.cbc.pend ++ List.replicate (16 - r.1.cbc.partSz) (UInt8.ofNat (16 - r.1.cbc.partSz))) := by
    rw [← List.append_assoc]
    unfold pkcs7Pad
    rw [hlen]
    exact congrArg (· ++ _) hacc
  rw [hpad, cbcEnc_append _ _ _ _ hw, ← hout]
  simp only
  rw [(padEncFinal_spec x.aes r.1.cbc h3).1]
  have : r.1.cbc.key = o.symm := h5
  rw [this]

/-- C44, decryption: for every sequence of `C_DecryptUpdate` calls handing over the
encryption of the padded message `m`, followed by `C_DecryptFinal` with a buffer, the
bytes written are `m`. -/
theorem c44_decrypt_split (x : Crypto) (hx : x.aes.Lawful) (s s1 : OpSt) (o : Obj) (iv m : Bytes)
    (calls : List UpdCall) (n : Nat)
    (hinit : decryptInit s o .aesCbcPad (.raw iv) = (s1, .ok)) (hf : NothingBuffered s)
    (hdata : accepted calls (runCalls (decCalls x o) s1 calls).2 =
      (cbcEnc (x.aes.enc o.symm) iv (pkcs7Pad m)).1) :
    let r := runCalls (decCalls x o) s1 calls
    let fin := decryptFinal x r.1 (some o) (.buf n)
    fin.2.rv = .ok ∧ produced r.2 ++ fin.2.wr = m ∧ fin.2.len = some fin.2.wr.length := by
  obtain ⟨_, hiv, hkey⟩ := cbcInit_ok hinit
  have hc := hx _ hkey
  have h := runCalls_inv (decCalls x o) _ (fun s acc out c => decCalls_step (Or.inr ⟨rfl, rfl⟩) s acc out c)
    calls _ [] [] (midDec_init x hinit hf)
  simp only [List.nil_append] at h
  obtain ⟨h1, h2, h3, _, hpos, h5, w, hw, hacc, hout⟩ := h
  intro r fin
  change r.1.mech = _ at h1
  change r.1.init = _ at h2
  change r.1.cbc.Ok at h3
  change r.1.cbc.key = o.symm at h5
  change accepted calls r.2 = w ++ r.1.cbc.pend at hacc
  change (produced r.2, r.1.cbc.reg) = cbcDec (x.aes.dec o.symm) iv w at hout
  have hpl := pkcs7Pad_length m
  have hdl : (accepted calls r.2).length % 16 = 0 ∧ 16 ≤ (accepted calls r.2).length := by
    show (accepted calls (runCalls (decCalls x o) _ calls).2).length % 16 = 0 ∧ _
    have := (cbcEnc_length hc iv (pkcs7Pad m) hiv).1
    rw [hdata]; omega
  have hne : accepted calls r.2 ≠ [] := by
    intro h; rw [h] at hdl; simp at hdl
  have hpos : 0 < r.1.cbc.partSz := hpos rfl hne
  have h16 : r.1.cbc.partSz = 16 := by
    have := congrArg List.length hacc
    rw [List.length_append, Cbc.pend_length h3] at this
    have := h3.sz
    omega
  have hpart : r.1.cbc.pend = r.1.cbc.part := by
    rw [Cbc.pend, h16]; exact List.take_of_length_le (by rw [h3.part]; exact Nat.le_refl _)
  have hreg : r.1.cbc.reg.length = 16 := by
    have h' := cbcDec_length hc iv w hiv
    rw [← hout] at h'; exact h'.2
  have hblk : (cbcDec (x.aes.dec r.1.cbc.key) r.1.cbc.reg r.1.cbc.part).1.length = 16 := by
    rw [h5, (cbcDec_length hc _ _ hreg).1, h3.part]
  have hall : produced r.2 ++ (cbcDec (x.aes.dec r.1.cbc.key) r.1.cbc.reg r.1.cbc.part).1 = pkcs7Pad m := by
    have h' := cbcDec_append (x.aes.dec o.symm) iv w r.1.cbc.part hw
    rw [← hout] at h'
    have h'' := cbcDec_cbcEnc hc iv (pkcs7Pad m) hiv hpl.1
    rw [← hdata] at h''
    change (cbcDec _ iv (accepted calls r.2)).1 = _ at h''
    rw [hacc, hpart, h'] at h''
    rw [h5]; exact h''
  obtain ⟨hk, hm⟩ := unpad hblk hall
  obtain ⟨hf1, _, _⟩ := padDecFinal_full x.aes r.1.cbc h3.part h16 hblk
  have hfin : fin.2 = { rv := .ok, wr := (cbcDec (x.aes.dec r.1.cbc.key) r.1.cbc.reg r.1.cbc.part).1.take (16 - (16 - m.length % 16)),
                        len := some ((cbcDec (x.aes.dec r.1.cbc.key) r.1.cbc.reg r.1.cbc.part).1.take (16 - (16 - m.length % 16))).length } := by
    have : (16 - m.length % 16 ≤ 16) := by omega
    simp only [hk, this, if_true] at hf1
    simp only [fin, decryptFinal, withArgs, h1, needInit, h2, h16]
    simp [hf1]
  rw [hfin]
  exact ⟨rfl, hm, rfl⟩

/-- C44: multi-part encryption followed by multi-part decryption, each split in any
way, gives back the data handed over. -/
theorem c44_round_trip (x : Crypto) (hx : x.aes.Lawful) (s s1 t t1 : OpSt) (o : Obj) (iv : Bytes)
    (ecalls dcalls : List UpdCall) (n k : Nat) (hn : 16 ≤ n)
    (he : encryptInit s o .aesCbcPad (.raw iv) = (s1, .ok)) (hs : NothingBuffered s)
    (hd : decryptInit t o .aesCbcPad (.raw iv) = (t1, .ok)) (ht : NothingBuffered t)
    (hdata : accepted dcalls (runCalls (decCalls x o) t1 dcalls).2 =
      produced (runCalls (encCalls x o) s1 ecalls).2 ++
        (encryptFinal x (runCalls (encCalls x o) s1 ecalls).1 (some o) (.buf n)).2.wr) :
    produced (runCalls (decCalls x o) t1 dcalls).2 ++
        (decryptFinal x (runCalls (decCalls x o) t1 dcalls).1 (some o) (.buf k)).2.wr =
      accepted ecalls (runCalls (encCalls x o) s1 ecalls).2 := by
  have h1 := (c44_encrypt_split x s s1 o iv ecalls n hn he hs).2
  rw [h1] at hdata
  exact (c44_decrypt_split x hx t t1 o iv _ dcalls k hd ht hdata).2.1

/-- C44: the single-part functions: encryption is the CBC encryption of the padded
message and decryption undoes it. (What they do to the caller's buffer is C45.) -/
theorem c44_single_part (x : Crypto) (hx : x.aes.Lawful) (s s1 t t1 : OpSt) (o o' : Obj) (hsym : o'.symm = o.symm)
    (iv m : Bytes) (n k rnd rnd' : Nat) (hn : m.length ≤ n)
    (he : encryptInit s o .aesCbcPad (.raw iv) = (s1, .ok)) (hs : NothingBuffered s)
    (hd : decryptInit t o' .aesCbcPad (.raw iv) = (t1, .ok)) (ht : NothingBuffered t) :
    let ct := (encrypt x s1 (some o) (some m) (.buf n) rnd).2
    let pt := (decrypt x t1 (some o') (some ct.wr) (.buf k) rnd').2
    ct.rv = .ok ∧ ct.wr = (cbcEnc (x.aes.enc o.symm) iv (pkcs7Pad m)).1 ∧
    pt.rv = .ok ∧ pt.wr = m := by
  obtain ⟨rfl, hiv, hkey⟩ := cbcInit_ok he
  obtain ⟨rfl, _, _⟩ := cbcInit_ok hd
  rw [hsym]
  have hc := hx _ hkey
  have hk : ¬ m.length > n := by omega
  intro ct pt
  -- encryption: an update followed by the final block
  have hct : ct =
      { rv := .ok
        wr := (cbcEnc (x.aes.enc o.symm) iv (pkcs7Pad m)).1
        len := some (cbcEnc (x.aes.enc o.symm) iv (pkcs7Pad m)).1.length } := by
    have hOk : Cbc.Ok { s.cbc with key := o.symm, reg := iv } := ⟨hs.1, by simp only; rw [hs.2]; omega⟩
    obtain ⟨g1, g2, g3, w, g4, g5, g6⟩ := Cbc.encUpdate_spec x.aes { s.cbc with key := o.symm, reg := iv } m hOk
    have hp0 : Cbc.pend { s.cbc with key := o.symm, reg := iv } = [] := by simp [Cbc.pend, hs.2]
    rw [hp0, List.nil_append] at g6
    have hf := (padEncFinal_spec x.aes _ g1).1
    have hw : (Cbc.padEncrypt x.aes { s.cbc with key := o.symm, reg := iv } m).1 =
        (cbcEnc (x.aes.enc o.symm) iv (pkcs7Pad m)).1 := by
      have hm : m.length % 16 = (Cbc.encUpdate x.aes { s.cbc with key := o.symm, reg := iv } m).2.partSz := by
        have := congrArg List.length g6
        rw [List.length_append, Cbc.pend_length g1] at this
        omega
      have hpad : pkcs7Pad m = w ++ (Cbc.pend (Cbc.encUpdate x.aes { s.cbc with key := o.symm, reg := iv } m).2 ++
          List.replicate (16 - (Cbc.encUpdate x.aes { s.cbc with key := o.symm, reg := iv } m).2.partSz)
            (UInt8.ofNat (16 - (Cbc.encUpdate x.aes { s.cbc with key := o.symm, reg := iv } m).2.partSz))) := by
        rw [← List.append_assoc, ← g6, ← hm]; rfl
      rw [hpad, cbcEnc_append _ _ _ _ g4, ← g5]
      simp only [Cbc.padEncrypt]
      rw [hf, g2]
    simp only [ct, encrypt, withArgs, needInit, sized, hk, finish]
    simp [hw]
  have hpl := pkcs7Pad_length m
  have hcl : ct.wr.length = (pkcs7Pad m).length := by
    rw [hct]; simp only; rw [(cbcEnc_length hc iv _ hiv).1]; omega
  refine ⟨by rw [hct], by rw [hct], ?_⟩
  -- decryption
  have hOk : Cbc.Ok { t.cbc with key := o.symm, reg := iv } := ⟨ht.1, by simp only; rw [ht.2]; omega⟩
  obtain ⟨r, e, g1, g2, g3, w, g4, g5, g6⟩ := Cbc.padDecUpdate_spec x.aes { t.cbc with key := o.symm, reg := iv } ct.wr hOk
  have hp0 : Cbc.pend { t.cbc with key := o.symm, reg := iv } = [] := by simp [Cbc.pend, ht.2]
  rw [hp0, List.nil_append] at g6 g3
  have hne : ct.wr ≠ [] := by intro h; rw [h] at hcl; simp at hcl; omega
  have hpos := g3 hne
  have h16 : r.2.partSz = 16 := by
    have := congrArg List.length g6
    rw [List.length_append, Cbc.pend_length g1] at this
    have := g1.sz
    omega
  have hpart : r.2.pend = r.2.part := by
    rw [Cbc.pend, h16]; exact List.take_of_length_le (by rw [g1.part]; exact Nat.le_refl _)
  simp only at g2 g5
  have hreg : r.2.reg.length = 16 := by
    have h' := cbcDec_length hc iv w hiv
    rw [← g5] at h'; exact h'.2
  have hblk : (cbcDec (x.aes.dec r.2.key) r.2.reg r.2.part).1.length = 16 := by
    rw [g2, (cbcDec_length hc _ _ hreg).1, g1.part]
  have hall : r.1 ++ (cbcDec (x.aes.dec r.2.key) r.2.reg r.2.part).1 = pkcs7Pad m := by
    have h' := cbcDec_append (x.aes.dec o.symm) iv w r.2.part g4
    rw [← g5] at h'
    have h'' := cbcDec_cbcEnc hc iv (pkcs7Pad m) hiv hpl.1
    have hw : ct.wr = (cbcEnc (x.aes.enc o.symm) iv (pkcs7Pad m)).1 := by rw [hct]
    rw [← hw, g6, hpart, h'] at h''
    rw [g2]; exact h''
  obtain ⟨hk', hm⟩ := unpad hblk hall
  obtain ⟨hf1, _, _⟩ := padDecFinal_full x.aes r.2 g1.part h16 hblk
  have h17 : (16 - m.length % 16 ≤ 16) := by omega
  simp only [hk', h17, if_true] at hf1
  have hpd : Cbc.padDecrypt x.aes { t.cbc with key := o.symm, reg := iv } ct.wr =
      (some m, (r.2.padDecFinal x.aes).2, true) := by
    simp only [Cbc.padDecrypt, e, hf1, Option.map_some, hm]
  have : pt = { rv := .ok, wr := m, len := some m.length } := by
    simp only [pt, decrypt, withArgs, needInit]
    simp [hpd, finish]
  rw [this]; exact ⟨rfl, rfl⟩

/-- Non-vacuity of C44. -/
example :
    let ecalls : List UpdCall := [(List.replicate 5 1, .buf 0), (List.replicate 30 2, .buf 32)]
    let s1 := (encryptInit {} Demo.key .aesCbcPad (.raw Demo.iv)).1
    let re := runCalls (encCalls Demo.x Demo.key) s1 ecalls
    let ct := produced re.2 ++ (encryptFinal Demo.x re.1 (some Demo.key) (.buf 16)).2.wr
    let dcalls : List UpdCall := [(ct.take 16, .buf 0), (ct.drop 16, .buf 47)]
    let t1 := (decryptInit {} Demo.key .aesCbcPad (.raw Demo.iv)).1
    let rd := runCalls (decCalls Demo.x Demo.key) t1 dcalls
    ct.length = 48 ∧ accepted dcalls rd.2 = ct ∧
    produced rd.2 ++ (decryptFinal Demo.x rd.1 (some Demo.key) (.buf 15)).2.wr =
      List.replicate 5 1 ++ List.replicate 30 2 := by decide

end Verif
