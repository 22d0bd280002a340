import Verif.Proofs.AesCbc
import Verif.Spec.Stream

namespace Verif

open Spec

/-- Induction over a sequence of calls. -/
theorem runCalls_inv {σ : Type} (f : σ → UpdCall → σ × Out) (Inv : σ → Bytes → Bytes → Prop)
    (hstep : ∀ s acc out c, Inv s acc out →
      Inv (f s c).1 (acc ++ handedOver c (f s c).2) (out ++ (f s c).2.wr))
    (calls : List UpdCall) : ∀ (s : σ) (acc out : Bytes), Inv s acc out →
      Inv (runCalls f s calls).1 (acc ++ accepted calls (runCalls f s calls).2)
        (out ++ produced (runCalls f s calls).2) := by
  induction calls with
  | nil => intro s acc out h; simpa [runCalls, accepted, produced] using h
  | cons c cs ih =>
    intro s acc out h
    have h1 := ih _ _ _ (hstep s acc out c h)
    simpa [runCalls, accepted, produced, List.append_assoc] using h1

/-- A property of every single result. -/
theorem runCalls_all {σ : Type} (f : σ → UpdCall → σ × Out) (P : σ → Prop) (Q : UpdCall → Out → Prop)
    (hstep : ∀ s c, P s → P (f s c).1 ∧ Q c (f s c).2)
    (calls : List UpdCall) : ∀ (s : σ), P s →
      ∀ co ∈ calls.zip (runCalls f s calls).2, Q co.1 co.2 := by
  induction calls with
  | nil => intro s _ co h; simp [runCalls] at h
  | cons c cs ih =>
    intro s h co hm
    simp only [runCalls, List.zip_cons_cons, List.mem_cons] at hm
    rcases hm with rfl | hm
    · exact (hstep s c h).2
    · exact ih _ (hstep s c h).1 co hm

/-- In the middle of an encryption with mechanism `m`: `acc` has been handed over and
`out` written. -/
structure MidEnc (x : Crypto) (m : Mech) (i : OpInit) (key iv : Bytes) (s : OpSt) (acc out : Bytes) :
    Prop where
  mech : s.mech = m
  init : s.init = i
  ok : s.cbc.Ok
  lt : s.cbc.partSz < 16
  hkey : s.cbc.key = key
  split : ∃ w, w.length % 16 = 0 ∧ acc = w ++ s.cbc.pend ∧
    (out, s.cbc.reg) = cbcEnc (x.aes.enc key) iv w

/-- The same for decryption. -/
structure MidDec (x : Crypto) (m : Mech) (i : OpInit) (key iv : Bytes) (s : OpSt) (acc out : Bytes) :
    Prop where
  mech : s.mech = m
  init : s.init = i
  ok : s.cbc.Ok
  lt : m = .aesCbc → s.cbc.partSz < 16
  pos : m = .aesCbcPad → acc ≠ [] → 0 < s.cbc.partSz
  hkey : s.cbc.key = key
  split : ∃ w, w.length % 16 = 0 ∧ acc = w ++ s.cbc.pend ∧
    (out, s.cbc.reg) = cbcDec (x.aes.dec key) iv w

/-- The two encryption modes that share the Update function. -/
def EncMode (m : Mech) (i : OpInit) : Prop :=
  m = .aesCbc ∧ i = .aesCbcEnc ∨ m = .aesCbcPad ∧ i = .aesCbcPadEnc

def DecMode (m : Mech) (i : OpInit) : Prop :=
  m = .aesCbc ∧ i = .aesCbcDec ∨ m = .aesCbcPad ∧ i = .aesCbcPadDec

/-- What an encryption Update call does, in one formula. -/
theorem encCalls_eq {x : Crypto} {o : Obj} {m i} (hm : EncMode m i) {s : OpSt} (h1 : s.mech = m)
    (h2 : s.init = i) (d : Bytes) (ob : OutBuf) :
    encCalls x o s (d, ob) =
      match ob with
      | .noLen => (s, { rv := .argumentsBad })
      | .query _ => (s, { rv := .ok, len := some ((d.length + s.cbc.partSz) / 16 * 16) })
      | .buf n =>
        if (d.length + s.cbc.partSz) / 16 * 16 > n then (s, { rv := .bufferTooSmall })
        else ({ s with cbc := (s.cbc.encUpdate x.aes d).2 },
              { rv := .ok, wr := (s.cbc.encUpdate x.aes d).1,
                len := some (s.cbc.encUpdate x.aes d).1.length }) := by
  rcases hm with ⟨rfl, rfl⟩ | ⟨rfl, rfl⟩ <;> cases ob <;>
    simp [encCalls, encryptUpdate, withArgs, needInit, sized, finish, h1, h2]

theorem encCalls_step {x : Crypto} {o : Obj} {m i} (hm : EncMode m i) {key iv : Bytes} (s acc out c)
    (h : MidEnc x m i key iv s acc out) :
    MidEnc x m i key iv (encCalls x o s c).1 (acc ++ handedOver c (encCalls x o s c).2)
      (out ++ (encCalls x o s c).2.wr) := by
  obtain ⟨d, ob⟩ := c
  obtain ⟨h1, h2, h3, h4, h5, w, hw, hacc, hout⟩ := h
  have same : MidEnc x m i key iv s (acc ++ []) (out ++ []) := by
    simpa using ⟨h1, h2, h3, h4, h5, w, hw, hacc, hout⟩
  rw [encCalls_eq hm h1 h2]
  cases ob with
  | noLen => exact same
  | query n => exact same
  | buf n =>
    by_cases hn : (d.length + s.cbc.partSz) / 16 * 16 > n
    · simpa [hn, handedOver] using same
    · simp only [hn, if_false, handedOver]
      obtain ⟨g1, g2, g3, w', g4, g5, g6⟩ := Cbc.encUpdate_spec x.aes s.cbc d h3
      refine ⟨h1, h2, g1, g3, by simp only; rw [g2, h5], w ++ w', by simp; omega, ?_, ?_⟩
      · rw [hacc]; simp only [List.append_assoc]; rw [g6]
      · rw [cbcEnc_append _ _ _ _ hw, ← hout]
        simp only
        rw [← h5, ← g5]

theorem midEnc_fresh {x : Crypto} {m i} {s : OpSt} {iv : Bytes} (h1 : s.mech = m) (h2 : s.init = i)
    (hf : NothingBuffered s) (hr : s.cbc.reg = iv) : MidEnc x m i s.cbc.key iv s [] [] := by
  refine ⟨h1, h2, ⟨hf.1, by rw [hf.2]; omega⟩, by rw [hf.2]; omega, rfl, [], by simp, ?_, ?_⟩
  · simp [Cbc.pend, hf.2]
  · rw [Cbc.cbcEnc_short' _ _]; simp [hr]

theorem decCalls_eq_cbc {x : Crypto} {o : Obj} {s : OpSt} (h1 : s.mech = .aesCbc)
    (h2 : s.init = .aesCbcDec) (d : Bytes) (ob : OutBuf) :
    decCalls x o s (d, ob) =
      match ob with
      | .noLen => (s, { rv := .argumentsBad })
      | .query _ => (s, { rv := .ok, len := some ((d.length + s.cbc.partSz) / 16 * 16) })
      | .buf n =>
        if (d.length + s.cbc.partSz) / 16 * 16 > n then (s, { rv := .bufferTooSmall })
        else match s.cbc.decUpdate x.aes d with
          | none => (s, { rv := .functionFailed })
          | some r => ({ s with cbc := r.2 }, { rv := .ok, wr := r.1, len := some r.1.length }) := by
  cases ob
  · simp [decCalls, decryptUpdate, withArgs]
  · simp [decCalls, decryptUpdate, withArgs, needInit, sized, h1, h2]
  · simp only [decCalls, decryptUpdate, withArgs, needInit, sized, finish, h1, h2]
    simp only [reduceCtorEq, if_false, if_true]
    split
    · rfl
    · split <;> rename_i e <;> simp only [e]

theorem decCalls_eq_pad {x : Crypto} {o : Obj} {s : OpSt} (h1 : s.mech = .aesCbcPad)
    (h2 : s.init = .aesCbcPadDec) (d : Bytes) (ob : OutBuf) :
    decCalls x o s (d, ob) =
      match ob with
      | .noLen => (s, { rv := .argumentsBad })
      | .query _ => (s, { rv := .ok, len := some (padDecLen (d.length + s.cbc.partSz)) })
      | .buf n =>
        if padDecLen (d.length + s.cbc.partSz) > n then (s, { rv := .bufferTooSmall })
        else match s.cbc.padDecUpdate x.aes d with
          | none => (s, { rv := .functionFailed })
          | some r => ({ s with cbc := r.2 }, { rv := .ok, wr := r.1, len := some r.1.length }) := by
  cases ob
  · simp [decCalls, decryptUpdate, withArgs]
  · simp [decCalls, decryptUpdate, withArgs, needInit, sized, h1, h2]
  · simp only [decCalls, decryptUpdate, withArgs, needInit, sized, finish, h1, h2]
    simp only [reduceCtorEq, if_false, if_true]
    split
    · rfl
    · split <;> rename_i e <;> simp only [e]

theorem decCalls_step {x : Crypto} {o : Obj} {m i} (hm : DecMode m i) {key iv : Bytes} (s acc out c)
    (h : MidDec x m i key iv s acc out) :
    MidDec x m i key iv (decCalls x o s c).1 (acc ++ handedOver c (decCalls x o s c).2)
      (out ++ (decCalls x o s c).2.wr) := by
  obtain ⟨d, ob⟩ := c
  obtain ⟨h1, h2, h3, h4, hp, h5, w, hw, hacc, hout⟩ := h
  have same : MidDec x m i key iv s (acc ++ []) (out ++ []) := by
    simpa using ⟨h1, h2, h3, h4, hp, h5, w, hw, hacc, hout⟩
  rcases hm with ⟨rfl, rfl⟩ | ⟨rfl, rfl⟩
  · rw [decCalls_eq_cbc h1 h2]
    cases ob with
    | noLen => exact same
    | query n => exact same
    | buf n =>
      by_cases hn : (d.length + s.cbc.partSz) / 16 * 16 > n
      · simpa [hn, handedOver] using same
      · obtain ⟨r, e, g1, g2, g3, w', g4, g5, g6⟩ := Cbc.decUpdate_spec x.aes s.cbc d h3
        simp only [hn, if_false, e, handedOver]
        refine ⟨h1, h2, g1, fun _ => g3, by simp, by simp only; rw [g2, h5], w ++ w', by simp; omega, ?_, ?_⟩
        · rw [hacc]; simp only [List.append_assoc]; rw [g6]
        · rw [cbcDec_append _ _ _ _ hw, ← hout]
          simp only
          rw [← h5, ← g5]
  · rw [decCalls_eq_pad h1 h2]
    cases ob with
    | noLen => exact same
    | query n => exact same
    | buf n =>
      by_cases hn : padDecLen (d.length + s.cbc.partSz) > n
      · simpa [hn, handedOver] using same
      · obtain ⟨r, e, g1, g2, g3, w', g4, g5, g6⟩ := Cbc.padDecUpdate_spec x.aes s.cbc d h3
        simp only [hn, if_false, e, handedOver]
        refine ⟨h1, h2, g1, by simp, ?_, by simp only; rw [g2, h5], w ++ w', by simp; omega, ?_, ?_⟩
        · intro _ hne
          apply g3
          intro hc
          simp only [List.append_eq_nil_iff] at hc
          obtain ⟨hc1, rfl⟩ := hc
          simp only [List.append_nil] at hne
          have := hp rfl hne
          have := Cbc.pend_length h3
          rw [hc1] at this; simp at this; omega
        · rw [hacc]; simp only [List.append_assoc]; rw [g6]
        · rw [cbcDec_append _ _ _ _ hw, ← hout]
          simp only
          rw [← h5, ← g5]

theorem midDec_fresh {x : Crypto} {m i} {s : OpSt} {iv : Bytes} (h1 : s.mech = m) (h2 : s.init = i)
    (hf : NothingBuffered s) (hr : s.cbc.reg = iv) : MidDec x m i s.cbc.key iv s [] [] := by
  refine ⟨h1, h2, ⟨hf.1, by rw [hf.2]; omega⟩, fun _ => by rw [hf.2]; omega, by simp, rfl, [], by simp, ?_, ?_⟩
  · simp [Cbc.pend, hf.2]
  · rw [Cbc.cbcDec_short' _ _]; simp [hr]

/-- What a successful Init for CBC or CBC-PAD leaves. -/
theorem cbcInit_ok {s s1 : OpSt} {o : Obj} {m : Mech} {iv : Bytes} {i : OpInit}
    (h : cbcInit s o m (.raw iv) i = (s1, .ok)) :
    s1 = { s with cbc := { s.cbc with key := o.symm, reg := iv }, mech := m, init := i } ∧
    iv.length = 16 ∧ (o.symm.length = 16 ∨ o.symm.length = 24 ∨ o.symm.length = 32) := by
  unfold cbcInit at h
  by_cases h1 : o.typ ≠ CKK_AES
  · simp [h1] at h
  · by_cases h2 : iv.length ≠ 16
    · simp [h1, h2] at h
    · by_cases h3 : o.symm.length = 16 ∨ o.symm.length = 24 ∨ o.symm.length = 32
      · simp [h1, h2, Cbc.setParams, h3, OpSt.started] at h
        exact ⟨h.symm, by simpa using h2, h3⟩
      · simp [h1, h2, Cbc.setParams, h3] at h

theorem cbcInit_fresh {s s1 : OpSt} {o : Obj} {m : Mech} {iv : Bytes} {i : OpInit}
    (h : cbcInit s o m (.raw iv) i = (s1, .ok)) (hf : NothingBuffered s) :
    s1.mech = m ∧ s1.init = i ∧ NothingBuffered s1 ∧ s1.cbc.reg = iv ∧ s1.cbc.key = o.symm ∧
    iv.length = 16 ∧ (o.symm.length = 16 ∨ o.symm.length = 24 ∨ o.symm.length = 32) := by
  obtain ⟨rfl, h1, h2⟩ := cbcInit_ok h
  exact ⟨rfl, rfl, hf, rfl, rfl, h1, h2⟩

theorem midEnc_init (x : Crypto) {s s1 : OpSt} {o : Obj} {m : Mech} {iv : Bytes} {i : OpInit}
    (h : cbcInit s o m (.raw iv) i = (s1, .ok)) (hf : NothingBuffered s) :
    MidEnc x m i o.symm iv s1 [] [] := by
  obtain ⟨h1, h2, h3, h4, h5, _⟩ := cbcInit_fresh h hf
  rw [← h5]; exact midEnc_fresh h1 h2 h3 h4

theorem midDec_init (x : Crypto) {s s1 : OpSt} {o : Obj} {m : Mech} {iv : Bytes} {i : OpInit}
    (h : cbcInit s o m (.raw iv) i = (s1, .ok)) (hf : NothingBuffered s) :
    MidDec x m i o.symm iv s1 [] [] := by
  obtain ⟨h1, h2, h3, h4, h5, _⟩ := cbcInit_fresh h hf
  rw [← h5]; exact midDec_fresh h1 h2 h3 h4

theorem padEncFinal_spec (a : Aes) (c : Cbc) (h : c.Ok) :
    (c.padEncFinal a).1 =
      (cbcEnc (a.enc c.key) c.reg
        (c.pend ++ List.replicate (16 - c.partSz) (UInt8.ofNat (16 - c.partSz)))).1 ∧
    (c.padEncFinal a).2.partSz = 0 ∧ (c.padEncFinal a).2.part.length = 16 := by
  have h1 := h.part
  have h2 := h.sz
  refine ⟨by simp [Cbc.padEncFinal, Cbc.rawEnc, Cbc.pend], by simp [Cbc.padEncFinal], ?_⟩
  simp [Cbc.padEncFinal, Cbc.rawEnc, h1]; omega

/-- The end of a padded message: if `out ++ blk` is the padding of `m`, the last byte
of `blk` is the pad count and removing that many bytes leaves `m`. -/
theorem unpad {out blk m : Bytes} (hb : blk.length = 16) (h : out ++ blk = pkcs7Pad m) :
    (blk.getD 15 0).toNat = 16 - m.length % 16 ∧
    out ++ blk.take (16 - (16 - m.length % 16)) = m := by
  have hl : out.length + 16 = m.length + (16 - m.length % 16) := by
    have := congrArg List.length h
    simp [pkcs7Pad, hb] at this; omega
  constructor
  · have h1 : (out ++ blk).getD (out.length + 15) 0 = (pkcs7Pad m).getD (out.length + 15) 0 := by rw [h]
    have h2 : (out ++ blk).getD (out.length + 15) 0 = blk.getD 15 0 := by
      simp only [List.getD]
      rw [List.getElem?_append_right (by omega)]
      simp
    have h3 : (pkcs7Pad m).getD (out.length + 15) 0 = UInt8.ofNat (16 - m.length % 16) := by
      simp only [pkcs7Pad, List.getD]
      rw [List.getElem?_append_right (by omega), List.getElem?_replicate]
      rw [if_pos (by omega)]; rfl
    rw [← h2, h1, h3]
    simp
    omega
  · have h1 : (out ++ blk).take (out.length + (16 - (16 - m.length % 16))) =
        out ++ blk.take (16 - (16 - m.length % 16)) := by
      rw [List.take_append, List.take_of_length_le (by omega)]
      simp
    rw [← h1, h]
    simp only [pkcs7Pad]
    rw [List.take_append_of_le_length (by omega), List.take_of_length_le (by omega)]

theorem pkcs7Pad_length (m : Bytes) : (pkcs7Pad m).length % 16 = 0 ∧ 16 ≤ (pkcs7Pad m).length := by
  simp [pkcs7Pad]; omega

theorem padDecFinal_full (a : Aes) (c : Cbc) (h : c.part.length = 16) (h16 : c.partSz = 16)
    (hb : (cbcDec (a.dec c.key) c.reg c.part).1.length = 16) :
    let blk := (cbcDec (a.dec c.key) c.reg c.part).1
    let k := (blk.getD 15 0).toNat
    (c.padDecFinal a).1 = some (blk.take (16 - (if k ≤ 16 then k else 0))) ∧
    (c.padDecFinal a).2.partSz = 0 ∧ (c.padDecFinal a).2.part.length = 16 := by
  intro blk k
  have e : c.part.take c.partSz = c.part := List.take_of_length_le (by omega)
  unfold Cbc.padDecFinal
  rw [e, Cbc.rawDec_ok _ _ _ (by omega)]
  have hw : Bytes.write c.part 0 blk = blk := by
    simp only [Bytes.write, List.take_zero, List.nil_append, Nat.zero_add]
    rw [List.drop_of_length_le (by rw [hb]; omega)]; simp
  simp only [blk] at hw
  simp only [hw]
  exact ⟨rfl, trivial, hb⟩

end Verif
