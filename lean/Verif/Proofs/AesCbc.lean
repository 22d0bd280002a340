import Verif.Model.AesCbc

/-! # Lemmas about CBC and the streaming functions -/

namespace Verif

open Spec

theorem cbcEncBlocks_add (E : Bytes → Bytes) (n k : Nat) (iv m : Bytes) :
    cbcEncBlocks E (n + k) iv m =
      ((cbcEncBlocks E n iv m).1 ++ (cbcEncBlocks E k (cbcEncBlocks E n iv m).2 (m.drop (16 * n))).1,
       (cbcEncBlocks E k (cbcEncBlocks E n iv m).2 (m.drop (16 * n))).2) := by
  induction n generalizing iv m with
  | zero => simp [cbcEncBlocks]
  | succ n ih =>
    rw [Nat.succ_add_eq_add_succ, Nat.add_succ]
    simp only [cbcEncBlocks]
    rw [ih]
    simp [List.drop_drop, Nat.mul_succ, Nat.add_comm]

theorem cbcDecBlocks_add (D : Bytes → Bytes) (n k : Nat) (iv m : Bytes) :
    cbcDecBlocks D (n + k) iv m =
      ((cbcDecBlocks D n iv m).1 ++ (cbcDecBlocks D k (cbcDecBlocks D n iv m).2 (m.drop (16 * n))).1,
       (cbcDecBlocks D k (cbcDecBlocks D n iv m).2 (m.drop (16 * n))).2) := by
  induction n generalizing iv m with
  | zero => simp [cbcDecBlocks]
  | succ n ih =>
    rw [Nat.succ_add_eq_add_succ, Nat.add_succ]
    simp only [cbcDecBlocks]
    rw [ih]
    simp [List.drop_drop, Nat.mul_succ, Nat.add_comm]

/-- Only the first `16 n` bytes matter. -/
theorem cbcEncBlocks_append (E : Bytes → Bytes) (n : Nat) (iv a b : Bytes) (h : 16 * n ≤ a.length) :
    cbcEncBlocks E n iv (a ++ b) = cbcEncBlocks E n iv a := by
  induction n generalizing iv a with
  | zero => simp [cbcEncBlocks]
  | succ n ih =>
    simp only [cbcEncBlocks]
    rw [List.take_append_of_le_length (by omega), List.drop_append_of_le_length (by omega),
      ih _ _ (by simp; omega)]

theorem cbcDecBlocks_append (D : Bytes → Bytes) (n : Nat) (iv a b : Bytes) (h : 16 * n ≤ a.length) :
    cbcDecBlocks D n iv (a ++ b) = cbcDecBlocks D n iv a := by
  induction n generalizing iv a with
  | zero => simp [cbcDecBlocks]
  | succ n ih =>
    simp only [cbcDecBlocks]
    rw [List.take_append_of_le_length (by omega), List.drop_append_of_le_length (by omega),
      ih _ _ (by simp; omega)]

/-- CBC encryption of `a ++ b` when `a` is whole blocks. -/
theorem cbcEnc_append (E : Bytes → Bytes) (iv a b : Bytes) (h : a.length % 16 = 0) :
    cbcEnc E iv (a ++ b) =
      ((cbcEnc E iv a).1 ++ (cbcEnc E (cbcEnc E iv a).2 b).1, (cbcEnc E (cbcEnc E iv a).2 b).2) := by
  unfold cbcEnc
  have hl : (a ++ b).length / 16 = a.length / 16 + b.length / 16 := by
    simp; omega
  have h16 : 16 * (a.length / 16) = a.length := by omega
  rw [hl, cbcEncBlocks_add, cbcEncBlocks_append _ _ _ _ _ (by omega), h16]
  simp

theorem cbcDec_append (D : Bytes → Bytes) (iv a b : Bytes) (h : a.length % 16 = 0) :
    cbcDec D iv (a ++ b) =
      ((cbcDec D iv a).1 ++ (cbcDec D (cbcDec D iv a).2 b).1, (cbcDec D (cbcDec D iv a).2 b).2) := by
  unfold cbcDec
  have hl : (a ++ b).length / 16 = a.length / 16 + b.length / 16 := by
    simp; omega
  have h16 : 16 * (a.length / 16) = a.length := by omega
  rw [hl, cbcDecBlocks_add, cbcDecBlocks_append _ _ _ _ _ (by omega), h16]
  simp

/-- A tail shorter than a block does not matter. -/
theorem cbcEnc_tail (E : Bytes → Bytes) (iv a b : Bytes) (h : a.length % 16 = 0) (hb : b.length < 16) :
    cbcEnc E iv (a ++ b) = cbcEnc E iv a := by
  rw [cbcEnc_append _ _ _ _ h]
  have : b.length / 16 = 0 := by omega
  simp [cbcEnc, this, cbcEncBlocks]

theorem cbcDec_tail (D : Bytes → Bytes) (iv a b : Bytes) (h : a.length % 16 = 0) (hb : b.length < 16) :
    cbcDec D iv (a ++ b) = cbcDec D iv a := by
  rw [cbcDec_append _ _ _ _ h]
  have : b.length / 16 = 0 := by omega
  simp [cbcDec, this, cbcDecBlocks]

@[simp] theorem cbcEnc_nil (E : Bytes → Bytes) (iv : Bytes) : cbcEnc E iv [] = ([], iv) := by
  simp [cbcEnc, cbcEncBlocks]

@[simp] theorem cbcDec_nil (D : Bytes → Bytes) (iv : Bytes) : cbcDec D iv [] = ([], iv) := by
  simp [cbcDec, cbcDecBlocks]

theorem cbcEnc_short (E : Bytes → Bytes) (iv a : Bytes) (h : a.length < 16) :
    cbcEnc E iv a = ([], iv) := by
  have : a.length / 16 = 0 := by omega
  simp [cbcEnc, this, cbcEncBlocks]

theorem cbcDec_short (D : Bytes → Bytes) (iv a : Bytes) (h : a.length < 16) :
    cbcDec D iv a = ([], iv) := by
  have : a.length / 16 = 0 := by omega
  simp [cbcDec, this, cbcDecBlocks]

theorem length_xorBytes (a b : Bytes) : (xorBytes a b).length = min a.length b.length := by
  simp [xorBytes]

theorem xorBytes_cancel : ∀ a b : Bytes, a.length ≤ b.length → xorBytes (xorBytes a b) b = a := by
  intro a
  induction a with
  | nil => intro b _; simp [xorBytes]
  | cons x a ih =>
    intro b hb
    cases b with
    | nil => simp at hb
    | cons y b =>
      simp at hb
      have := ih b hb
      simp only [xorBytes, List.zipWith_cons_cons] at *
      rw [this]
      congr 1
      rw [UInt8.xor_assoc]; simp

theorem cbcEncBlocks_length {E D : Bytes → Bytes} (hc : BlockCipher E D) (n : Nat) (iv m : Bytes)
    (hiv : iv.length = 16) (hm : 16 * n ≤ m.length) :
    (cbcEncBlocks E n iv m).1.length = 16 * n ∧ (cbcEncBlocks E n iv m).2.length = 16 := by
  induction n generalizing iv m with
  | zero => simp [cbcEncBlocks, hiv]
  | succ n ih =>
    simp only [cbcEncBlocks]
    have hl : (E (xorBytes (m.take 16) iv)).length = 16 :=
      hc.len_enc _ (by rw [length_xorBytes]; simp; omega)
    have := ih _ (m.drop 16) hl (by simp; omega)
    simp [hl, this]; omega

theorem cbcDecBlocks_length {E D : Bytes → Bytes} (hc : BlockCipher E D) (n : Nat) (iv m : Bytes)
    (hiv : iv.length = 16) (hm : 16 * n ≤ m.length) :
    (cbcDecBlocks D n iv m).1.length = 16 * n ∧ (cbcDecBlocks D n iv m).2.length = 16 := by
  induction n generalizing iv m with
  | zero => simp [cbcDecBlocks, hiv]
  | succ n ih =>
    simp only [cbcDecBlocks]
    have hl : (m.take 16).length = 16 := by simp; omega
    have := ih _ (m.drop 16) hl (by simp; omega)
    have h2 := hc.len_dec _ hl
    simp only [List.length_append, length_xorBytes, this, and_true]
    omega

/-- Decryption inverts encryption. -/
theorem cbcDec_cbcEnc_blocks {E D : Bytes → Bytes} (hc : BlockCipher E D) (n : Nat) (iv m : Bytes)
    (hiv : iv.length = 16) (hm : 16 * n ≤ m.length) :
    (cbcDecBlocks D n iv (cbcEncBlocks E n iv m).1).1 = m.take (16 * n) := by
  induction n generalizing iv m with
  | zero => simp [cbcDecBlocks]
  | succ n ih =>
    simp only [cbcEncBlocks]
    have hx : (xorBytes (m.take 16) iv).length = 16 := by rw [length_xorBytes]; simp; omega
    have hl := hc.len_enc _ hx
    simp only [cbcDecBlocks]
    rw [List.take_append_of_le_length (by omega), List.drop_append_of_le_length (by omega)]
    rw [List.take_of_length_le (by omega), List.drop_of_length_le (by omega)]
    simp only [List.nil_append]
    rw [ih _ _ hl (by simp; omega), hc.dec_enc _ hx, xorBytes_cancel _ _ (by simp; omega)]
    rw [show 16 * (n + 1) = 16 + 16 * n from by omega, List.take_add]

theorem cbcDec_cbcEnc {E D : Bytes → Bytes} (hc : BlockCipher E D) (iv m : Bytes)
    (hiv : iv.length = 16) (hm : m.length % 16 = 0) :
    (cbcDec D iv (cbcEnc E iv m).1).1 = m := by
  have hl := (cbcEncBlocks_length hc (m.length / 16) iv m hiv (by omega)).1
  unfold cbcDec
  unfold cbcEnc
  rw [hl, show 16 * (m.length / 16) / 16 = m.length / 16 from by omega,
    cbcDec_cbcEnc_blocks hc _ _ _ hiv (by omega), List.take_of_length_le (by omega)]

theorem cbcEnc_length {E D : Bytes → Bytes} (hc : BlockCipher E D) (iv m : Bytes) (hiv : iv.length = 16) :
    (cbcEnc E iv m).1.length = m.length / 16 * 16 ∧ (cbcEnc E iv m).2.length = 16 := by
  have := cbcEncBlocks_length hc (m.length / 16) iv m hiv (by omega)
  unfold cbcEnc; rw [this.1]; exact ⟨by omega, this.2⟩

theorem cbcDec_length {E D : Bytes → Bytes} (hc : BlockCipher E D) (iv m : Bytes) (hiv : iv.length = 16) :
    (cbcDec D iv m).1.length = m.length / 16 * 16 ∧ (cbcDec D iv m).2.length = 16 := by
  have := cbcDecBlocks_length hc (m.length / 16) iv m hiv (by omega)
  unfold cbcDec; rw [this.1]; exact ⟨by omega, this.2⟩

/-! ## Streaming -/

theorem Bytes.length_write (buf : Bytes) (off : Nat) (d : Bytes) (h : off + d.length ≤ buf.length) :
    (Bytes.write buf off d).length = buf.length := by
  simp [Bytes.write]; omega

theorem Bytes.take_write (buf : Bytes) (off : Nat) (d : Bytes) (h : off + d.length ≤ buf.length) :
    (Bytes.write buf off d).take (off + d.length) = buf.take off ++ d := by
  unfold Bytes.write
  rw [List.take_append_of_le_length (by simp; omega), List.take_of_length_le (by simp; omega)]

namespace Cbc

/-- The buffered bytes. -/
def pend (c : Cbc) : Bytes := c.part.take c.partSz

/-- Well-formed streaming state for encryption and plain decryption. -/
structure Ok (c : Cbc) : Prop where
  part : c.part.length = 16
  sz : c.partSz ≤ 16

theorem pend_length {c : Cbc} (h : c.Ok) : c.pend.length = c.partSz := by
  have := h.sz; simp [pend, h.part]; omega

theorem encFill_spec (a : Aes) (c : Cbc) (d : Bytes) (h : c.Ok) :
    let r := c.encFill a d
    r.2.2.Ok ∧ r.2.2.key = c.key ∧
    (r.2.2.partSz = 0 ∨ r.2.1 = [] ∧ r.2.2.partSz < 16) ∧
    ∃ w, w.length % 16 = 0 ∧ (r.1, r.2.2.reg) = cbcEnc (a.enc c.key) c.reg w ∧
      c.pend ++ d = w ++ (r.2.2.pend ++ r.2.1) := by
  obtain ⟨hp, hs⟩ := h
  unfold encFill
  by_cases h0 : c.partSz > 0
  · simp only [h0, if_true]
    have hw : c.partSz + (d.take (min (16 - c.partSz) d.length)).length ≤ c.part.length := by
      simp; omega
    have hlen : (d.take (min (16 - c.partSz) d.length)).length = min (16 - c.partSz) d.length := by
      simp
    have hwl := Bytes.length_write _ _ _ hw
    have htw := Bytes.take_write _ _ _ hw
    rw [hlen] at htw
    by_cases h16 : c.partSz + min (16 - c.partSz) d.length = 16
    · simp only [h16, if_true]
      refine ⟨⟨by simp, by simp⟩, by simp [rawEnc], by simp, ?_⟩
      refine ⟨Bytes.write c.part c.partSz (d.take (min (16 - c.partSz) d.length)), ?_, ?_, ?_⟩
      · rw [hwl, hp]
      · simp [rawEnc]
      · rw [h16, List.take_of_length_le (by rw [hwl, hp]; exact Nat.le_refl _)] at htw
        rw [htw]
        simp [pend]
    · simp only [h16, if_false]
      have hd : min (16 - c.partSz) d.length = d.length := by omega
      refine ⟨⟨by simp [hwl, hp], by simp; omega⟩, by trivial, Or.inr ⟨by simp; omega, by omega⟩, ?_⟩
      refine ⟨[], by simp, by simp, ?_⟩
      simp only [pend] at *
      rw [htw, hd]; simp
  · simp only [h0, if_false]
    refine ⟨⟨hp, hs⟩, by trivial, Or.inl (by omega), [], by simp, by simp, by simp⟩

theorem encBulk_spec (a : Aes) (c : Cbc) (d : Bytes) (h : c.Ok) (hc : c.partSz = 0 ∨ d = [] ∧ c.partSz < 16) :
    let r := c.encBulk a d
    r.2.Ok ∧ r.2.key = c.key ∧ r.2.partSz < 16 ∧
    ∃ w, w.length % 16 = 0 ∧ (r.1, r.2.reg) = cbcEnc (a.enc c.key) c.reg w ∧
      c.pend ++ d = w ++ r.2.pend := by
  obtain ⟨hp, hs⟩ := h
  unfold encBulk
  rcases hc with hc | ⟨rfl, hc⟩
  · have hr : (d.drop (d.length / 16 * 16)).length = d.length % 16 := by simp; omega
    have e : (if d.length / 16 * 16 > 0 then c.rawEnc a (d.take (d.length / 16 * 16)) else ([], c))
        = c.rawEnc a (d.take (d.length / 16 * 16)) := by
      split
      · rfl
      · have : d.length / 16 * 16 = 0 := by omega
        simp [this, rawEnc]
    simp only [e]
    have hpend : c.pend = [] := by simp [pend, hc]
    by_cases hz : (d.drop (d.length / 16 * 16)).length > 0
    · simp only [hz, if_true]
      have hw : 0 + (d.drop (d.length / 16 * 16)).length ≤ c.part.length := by omega
      have h1 := Bytes.length_write _ _ _ hw
      have h2 := Bytes.take_write _ _ _ hw
      simp only [Nat.zero_add, List.take_zero, List.nil_append] at h2
      refine ⟨⟨by simp [rawEnc, h1, hp], by simp; omega⟩, by simp [rawEnc], by simp; omega, ?_⟩
      refine ⟨d.take (d.length / 16 * 16), by simp; omega, by simp [rawEnc], ?_⟩
      simp only [pend, rawEnc] at *
      rw [h2, hpend]; simp
    · simp only [hz, if_false]
      refine ⟨⟨by simp [rawEnc, hp], by simp [rawEnc, hs]⟩, by simp [rawEnc], by simp [rawEnc]; omega, ?_⟩
      refine ⟨d.take (d.length / 16 * 16), by simp; omega, by simp [rawEnc], ?_⟩
      rw [hpend]
      have : (c.rawEnc a (d.take (d.length / 16 * 16))).2.pend = [] := by simp [rawEnc, pend, hc]
      rw [this, List.nil_append, List.append_nil, List.take_of_length_le (by omega)]
  · refine ⟨⟨by simpa using hp, by simpa using hs⟩, by simp, by simpa using hc, [], by simp, by simp, by simp⟩

/-- One `EncryptUpdate`: some whole blocks `w` of `pending ++ input` are encrypted,
the rest (less than a block) stays pending. -/
theorem encUpdate_spec (a : Aes) (c : Cbc) (d : Bytes) (h : c.Ok) :
    let r := c.encUpdate a d
    r.2.Ok ∧ r.2.key = c.key ∧ r.2.partSz < 16 ∧
    ∃ w, w.length % 16 = 0 ∧ (r.1, r.2.reg) = cbcEnc (a.enc c.key) c.reg w ∧
      c.pend ++ d = w ++ r.2.pend := by
  intro r
  obtain ⟨h1, h2, h3, w1, h4, h5, h6⟩ := encFill_spec a c d h
  obtain ⟨g1, g2, g3, w2, g4, g5, g6⟩ := encBulk_spec a _ _ h1 h3
  refine ⟨g1, by rw [← h2]; exact g2, g3, w1 ++ w2, by simp; omega, ?_, ?_⟩
  · rw [cbcEnc_append _ _ _ _ h4, ← h5]
    rw [h2] at g5
    simp only at *
    rw [← g5]; rfl
  · rw [h6, g6]; simp; rfl

theorem rawDec_ok (a : Aes) (c : Cbc) (d : Bytes) (h : d.length % 16 = 0) :
    c.rawDec a d = some ((cbcDec (a.dec c.key) c.reg d).1, { c with reg := (cbcDec (a.dec c.key) c.reg d).2 }) := by
  simp [rawDec, h]

theorem decFill_spec (a : Aes) (c : Cbc) (d : Bytes) (h : c.Ok) :
    ∃ r, c.decFill a d = some r ∧ r.2.2.Ok ∧ r.2.2.key = c.key ∧
    (r.2.2.partSz = 0 ∨ r.2.1 = [] ∧ r.2.2.partSz < 16) ∧
    ∃ w, w.length % 16 = 0 ∧ (r.1, r.2.2.reg) = cbcDec (a.dec c.key) c.reg w ∧
      c.pend ++ d = w ++ (r.2.2.pend ++ r.2.1) := by
  obtain ⟨hp, hs⟩ := h
  unfold decFill
  by_cases h0 : c.partSz > 0
  · simp only [h0, if_true]
    have hw : c.partSz + (d.take (min (16 - c.partSz) d.length)).length ≤ c.part.length := by
      simp; omega
    have hlen : (d.take (min (16 - c.partSz) d.length)).length = min (16 - c.partSz) d.length := by
      simp
    have hwl := Bytes.length_write _ _ _ hw
    have htw := Bytes.take_write _ _ _ hw
    rw [hlen] at htw
    by_cases h16 : c.partSz + min (16 - c.partSz) d.length = 16
    · simp only [h16, if_true]
      rw [rawDec_ok _ _ _ (by simp [hwl, hp])]
      simp only [Option.map_some, Option.some.injEq, exists_eq_left']
      refine ⟨⟨by simp [hwl, hp], by simp⟩, by simp, by simp, ?_⟩
      refine ⟨Bytes.write c.part c.partSz (d.take (min (16 - c.partSz) d.length)), ?_, ?_, ?_⟩
      · rw [hwl, hp]
      · simp
      · rw [h16, List.take_of_length_le (by rw [hwl, hp]; exact Nat.le_refl _)] at htw
        rw [htw]
        simp [pend]
    · simp only [h16, if_false, Option.some.injEq, exists_eq_left']
      have hd : min (16 - c.partSz) d.length = d.length := by omega
      refine ⟨⟨by simp [hwl, hp], by simp; omega⟩, by trivial, Or.inr ⟨by simp; omega, by omega⟩, ?_⟩
      refine ⟨[], by simp, by simp, ?_⟩
      simp only [pend] at *
      rw [htw, hd]; simp
  · simp only [h0, if_false, Option.some.injEq, exists_eq_left']
    refine ⟨⟨hp, hs⟩, by trivial, Or.inl (by omega), [], by simp, by simp, by simp⟩

theorem decBulk_spec (a : Aes) (c : Cbc) (d : Bytes) (h : c.Ok) (hc : c.partSz = 0 ∨ d = [] ∧ c.partSz < 16) :
    ∃ r, c.decBulk a d = some r ∧ r.2.Ok ∧ r.2.key = c.key ∧ r.2.partSz < 16 ∧
    ∃ w, w.length % 16 = 0 ∧ (r.1, r.2.reg) = cbcDec (a.dec c.key) c.reg w ∧
      c.pend ++ d = w ++ r.2.pend := by
  obtain ⟨hp, hs⟩ := h
  unfold decBulk
  rcases hc with hc | ⟨rfl, hc⟩
  · have hr : (d.drop (d.length / 16 * 16)).length = d.length % 16 := by simp; omega
    have e : (if d.length / 16 * 16 > 0 then c.rawDec a (d.take (d.length / 16 * 16)) else some ([], c))
        = c.rawDec a (d.take (d.length / 16 * 16)) := by
      split
      · rfl
      · have : d.length / 16 * 16 = 0 := by omega
        simp [this, rawDec]
    simp only [e]
    rw [rawDec_ok _ _ _ (by simp; omega)]
    simp only [Option.map_some, Option.some.injEq, exists_eq_left']
    have hpend : c.pend = [] := by simp [pend, hc]
    by_cases hz : (d.drop (d.length / 16 * 16)).length > 0
    · simp only [hz, if_true]
      have hw : 0 + (d.drop (d.length / 16 * 16)).length ≤ c.part.length := by omega
      have h1 := Bytes.length_write _ _ _ hw
      have h2 := Bytes.take_write _ _ _ hw
      simp only [Nat.zero_add, List.take_zero, List.nil_append] at h2
      refine ⟨⟨by simp [h1, hp], by simp; omega⟩, by trivial, by simp; omega, ?_⟩
      refine ⟨d.take (d.length / 16 * 16), by simp; omega, by simp, ?_⟩
      simp only [pend] at *
      rw [h2, hpend]; simp
    · simp only [hz, if_false]
      refine ⟨⟨by simp [hp], by simp [hs]⟩, by trivial, by omega, ?_⟩
      refine ⟨d.take (d.length / 16 * 16), by simp; omega, by simp, ?_⟩
      rw [hpend]
      simp only [pend, hc, List.take_zero, List.append_nil, List.nil_append]
      rw [List.take_of_length_le (by omega)]
  · simp only [List.length_nil, Nat.zero_div, Nat.zero_mul, Nat.lt_irrefl, if_false, gt_iff_lt,
      List.drop_nil, Option.map_some, Option.some.injEq, exists_eq_left']
    refine ⟨⟨by simpa using hp, by simpa using hs⟩, by trivial, by simpa using hc, [], by simp, by simp, by simp⟩

/-- One `DecryptUpdate`. -/
theorem decUpdate_spec (a : Aes) (c : Cbc) (d : Bytes) (h : c.Ok) :
    ∃ r, c.decUpdate a d = some r ∧ r.2.Ok ∧ r.2.key = c.key ∧ r.2.partSz < 16 ∧
    ∃ w, w.length % 16 = 0 ∧ (r.1, r.2.reg) = cbcDec (a.dec c.key) c.reg w ∧
      c.pend ++ d = w ++ r.2.pend := by
  obtain ⟨r1, e1, h1, h2, h3, w1, h4, h5, h6⟩ := decFill_spec a c d h
  obtain ⟨r2, e2, g1, g2, g3, w2, g4, g5, g6⟩ := decBulk_spec a _ _ h1 h3
  refine ⟨(r1.1 ++ r2.1, r2.2), ?_, g1, by rw [← h2]; exact g2, g3, w1 ++ w2, by simp; omega, ?_, ?_⟩
  · simp [decUpdate, e1, e2]
  · rw [cbcDec_append _ _ _ _ h4, ← h5]
    rw [h2] at g5
    simp only at *
    rw [← g5]
  · rw [h6, g6]; simp

theorem padDecFill_spec (a : Aes) (c : Cbc) (d : Bytes) (h : c.Ok) :
    ∃ r, c.padDecFill a d = some r ∧ r.2.2.Ok ∧ r.2.2.key = c.key ∧
    (r.2.2.partSz = 0 ∧ (c.partSz = 0 ∨ r.2.1 ≠ []) ∨ r.2.1 = [] ∧ 0 < r.2.2.partSz) ∧
    ∃ w, w.length % 16 = 0 ∧ (r.1, r.2.2.reg) = cbcDec (a.dec c.key) c.reg w ∧
      c.pend ++ d = w ++ (r.2.2.pend ++ r.2.1) := by
  obtain ⟨hp, hs⟩ := h
  unfold padDecFill
  by_cases h0 : c.partSz > 0
  · simp only [h0, if_true]
    have hw : c.partSz + (d.take (min (16 - c.partSz) d.length)).length ≤ c.part.length := by
      simp; omega
    have hlen : (d.take (min (16 - c.partSz) d.length)).length = min (16 - c.partSz) d.length := by
      simp
    have hwl := Bytes.length_write _ _ _ hw
    have htw := Bytes.take_write _ _ _ hw
    rw [hlen] at htw
    by_cases h16 : c.partSz + min (16 - c.partSz) d.length = 16 ∧
        (d.drop (min (16 - c.partSz) d.length)).length > 0
    · simp only [h16, and_self, if_true]
      rw [rawDec_ok _ _ _ (by simp [hwl, hp])]
      simp only [Option.map_some, Option.some.injEq, exists_eq_left']
      refine ⟨⟨by simp [hwl, hp], by simp⟩, by simp, Or.inl ⟨by simp, Or.inr ?_⟩, ?_⟩
      · intro hn; have h2 := h16.2; rw [hn] at h2; simp at h2
      refine ⟨Bytes.write c.part c.partSz (d.take (min (16 - c.partSz) d.length)), ?_, ?_, ?_⟩
      · rw [hwl, hp]
      · simp
      · rw [h16.1, List.take_of_length_le (by rw [hwl, hp]; exact Nat.le_refl _)] at htw
        rw [htw]
        simp [pend]
    · simp only [h16, if_false, Option.some.injEq, exists_eq_left']
      have hd : d.drop (min (16 - c.partSz) d.length) = [] := by
        apply List.eq_nil_of_length_eq_zero
        simp only [List.length_drop] at h16 ⊢
        omega
      refine ⟨⟨by simp [hwl, hp], by simp; omega⟩, by trivial, Or.inr ⟨hd, by omega⟩, ?_⟩
      refine ⟨[], by simp, by simp, ?_⟩
      simp only [pend] at *
      rw [htw, hd]
      simp only [List.nil_append, List.append_nil, List.append_cancel_left_eq]
      simp only [List.drop_eq_nil_iff] at hd
      rw [List.take_of_length_le (by omega)]
  · simp only [h0, if_false, Option.some.injEq, exists_eq_left']
    refine ⟨⟨hp, hs⟩, by trivial, Or.inl ⟨by omega, Or.inl (by omega)⟩, [], by simp, by simp, by simp⟩

theorem padDecBulk_spec (a : Aes) (c : Cbc) (d : Bytes) (h : c.Ok)
    (hc : c.partSz = 0 ∨ d = []) :
    ∃ r, c.padDecBulk a d = some r ∧ r.2.Ok ∧ r.2.key = c.key ∧
    (d ≠ [] → 0 < r.2.partSz) ∧ (d = [] → r.2.partSz = c.partSz) ∧
    ∃ w, w.length % 16 = 0 ∧ (r.1, r.2.reg) = cbcDec (a.dec c.key) c.reg w ∧
      c.pend ++ d = w ++ r.2.pend := by
  obtain ⟨hp, hs⟩ := h
  by_cases hd : d = []
  · subst hd
    refine ⟨([], c), by simp [padDecBulk], ⟨hp, hs⟩, rfl, by simp, by simp, [], by simp, by simp, by simp⟩
  · have hc : c.partSz = 0 := hc.resolve_right hd
    have hpos : 0 < d.length := List.length_pos_iff.2 hd
    have hpend : c.pend = [] := by simp [pend, hc]
    unfold padDecBulk
    -- the number of bytes decrypted now
    obtain ⟨sz, hsz⟩ : ∃ sz, sz = (if d.length > 16 then
      (if d.length - d.length % 16 = d.length then d.length - d.length % 16 - 16 else d.length - d.length % 16) else 0) := ⟨_, rfl⟩
    have hsz16 : sz % 16 = 0 := by rw [hsz]; (repeat' split) <;> omega
    have hlt : sz < d.length := by rw [hsz]; (repeat' split) <;> omega
    have hrem : d.length - sz ≤ 16 := by rw [hsz]; (repeat' split) <;> omega
    simp only [← hsz]
    have e : (if d.length > 16 then c.rawDec a (d.take sz) else some ([], c)) = c.rawDec a (d.take sz) := by
      split
      · rfl
      · rename_i h; simp only [h, if_false] at hsz; simp [hsz, rawDec]
    rw [e, rawDec_ok _ _ _ (by simp; omega)]
    have hz : (d.drop sz).length > 0 := by simp; omega
    simp only [Option.map_some, hz, if_true, Option.some.injEq, exists_eq_left']
    have hw : 0 + (d.drop sz).length ≤ c.part.length := by simp; omega
    have h1 := Bytes.length_write _ _ _ hw
    have h2 := Bytes.take_write _ _ _ hw
    simp only [Nat.zero_add, List.take_zero, List.nil_append] at h2
    refine ⟨⟨by simp [h1, hp], by simp; omega⟩, by trivial, fun _ => trivial,
      fun h => absurd h hd, ?_⟩
    refine ⟨d.take sz, by simp; omega, by simp, ?_⟩
    simp only [pend] at *
    rw [h2, hpend]; simp

/-- One CBC-PAD `DecryptUpdate`: as `decUpdate_spec`, but at least one byte stays
pending as soon as there is any data. -/
theorem padDecUpdate_spec (a : Aes) (c : Cbc) (d : Bytes) (h : c.Ok) :
    ∃ r, c.padDecUpdate a d = some r ∧ r.2.Ok ∧ r.2.key = c.key ∧
    (c.pend ++ d ≠ [] → 0 < r.2.partSz) ∧
    ∃ w, w.length % 16 = 0 ∧ (r.1, r.2.reg) = cbcDec (a.dec c.key) c.reg w ∧
      c.pend ++ d = w ++ r.2.pend := by
  obtain ⟨r1, e1, h1, h2, h3, w1, h4, h5, h6⟩ := padDecFill_spec a c d h
  obtain ⟨r2, e2, g1, g2, gp, gq, w2, g4, g5, g6⟩ :=
    padDecBulk_spec a r1.2.2 r1.2.1 h1 (h3.elim (fun h => .inl h.1) (fun h => .inr h.1))
  refine ⟨(r1.1 ++ r2.1, r2.2), ?_, g1, by rw [← h2]; exact g2, ?_, w1 ++ w2, by simp; omega, ?_, ?_⟩
  · simp [padDecUpdate, e1, e2]
  · intro hne
    by_cases hn : r1.2.1 = []
    · have := gq hn
      simp only
      rcases h3 with ⟨h, h' | h'⟩ | ⟨_, h⟩
      · have hc0 : c.pend = [] := by simp [pend, h']
        -- no pending data and no rest: then no input either
        have : r1 = ([], d, c) := by
          have : c.padDecFill a d = some ([], d, c) := by simp [padDecFill, h']
          rw [this] at e1; simpa using e1.symm
        rw [this] at hn
        simp only at hn
        rw [hc0, hn] at hne; simp at hne
      · contradiction
      · omega
    · exact gp hn
  · rw [cbcDec_append _ _ _ _ h4, ← h5]
    rw [h2] at g5
    simp only at *
    rw [← g5]
  · rw [h6, g6]; simp

theorem cbcEnc_short' (E : Bytes → Bytes) (iv : Bytes) : cbcEnc E iv [] = ([], iv) := by
  simp [cbcEnc, cbcEncBlocks]

theorem cbcDec_short' (D : Bytes → Bytes) (iv : Bytes) : cbcDec D iv [] = ([], iv) := by
  simp [cbcDec, cbcDecBlocks]

end Cbc
end Verif
