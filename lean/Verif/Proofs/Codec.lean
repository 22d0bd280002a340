import Verif.Spec.Codec

/-!
# Lemmas about the storage primitives
-/

namespace Verif

theorem length_beBytes (len n : Nat) : (beBytes len n).length = len := by
  induction len generalizing n with
  | zero => rfl
  | succ k ih => simp [beBytes, ih]

theorem ofBytes_append_one (a : Bytes) (x : UInt8) : ofBytes (a ++ [x]) = ofBytes a * 256 + x.toNat := by
  simp [ofBytes]

theorem ofBytes_beBytes (len n : Nat) (h : n < 256 ^ len) : ofBytes (beBytes len n) = n := by
  induction len generalizing n with
  | zero => simp at h; subst h; rfl
  | succ k ih =>
    rw [beBytes, ofBytes_append_one, ih]
    · have : (UInt8.ofNat (n % 256)).toNat = n % 256 := by
        rw [UInt8.toNat_ofNat']; omega
      rw [this]; omega
    · rw [Nat.pow_succ] at h; omega

theorem beBytes_ofBytes (b : Bytes) : beBytes b.length (ofBytes b) = b := by
  suffices h : ∀ n (b : Bytes), b.length = n → beBytes n (ofBytes b) = b from h _ b rfl
  intro n
  induction n with
  | zero => intro b h; rw [List.length_eq_zero_iff.1 h]; rfl
  | succ n ih =>
    intro b h
    have hne : b ≠ [] := by intro h'; rw [h'] at h; simp at h
    obtain ⟨c, a, rfl⟩ : ∃ c a, b = c ++ [a] := ⟨_, _, (List.dropLast_concat_getLast hne).symm⟩
    have hl : c.length = n := by simpa using h
    have hx := a.toNat_lt
    simp only [beBytes, ofBytes_append_one]
    have h1 : (ofBytes c * 256 + a.toNat) / 256 = ofBytes c := by omega
    have h2 : (ofBytes c * 256 + a.toNat) % 256 = a.toNat := by omega
    rw [h1, h2, ih _ hl]
    simp

theorem foldl_lt (b : Bytes) (acc : Nat) :
    b.foldl (fun a x => a * 256 + x.toNat) acc < (acc + 1) * 256 ^ b.length := by
  induction b generalizing acc with
  | nil => simp
  | cons x b ih =>
    rw [List.foldl_cons, List.length_cons, Nat.pow_succ]
    have h := ih (acc * 256 + x.toNat)
    have hx := x.toNat_lt
    have : (acc * 256 + x.toNat + 1) * 256 ^ b.length ≤ ((acc + 1) * 256) * 256 ^ b.length :=
      Nat.mul_le_mul_right _ (by omega)
    calc _ < _ := h
      _ ≤ _ := this
      _ = _ := by rw [Nat.mul_assoc, Nat.mul_comm 256]

theorem ofBytes_lt (b : Bytes) : ofBytes b < 256 ^ b.length := by
  have := foldl_lt b 0
  simpa [ofBytes] using this

namespace ReadsBack

theorem pure {α : Type} (v : α) : ReadsBack (Rd.pure v) [] v :=
  ⟨fun rest => rfl, fun n h => absurd h (by simp)⟩

/-- Readers in sequence. -/
theorem bind {α β : Type} {r : Rd α} {f : α → Rd β} {w₁ w₂ : Bytes} {a : α} {b : β}
    (h₁ : ReadsBack r w₁ a) (h₂ : ReadsBack (f a) w₂ b) : ReadsBack (r >>= f) (w₁ ++ w₂) b := by
  refine ⟨fun rest => ?_, fun n hn => ?_⟩
  · show Rd.bind r f _ = _
    rw [List.append_assoc, Rd.bind, h₁.1]
    exact h₂.1 rest
  · show Rd.bind r f _ = _
    rw [List.length_append] at hn
    by_cases h : n < w₁.length
    · rw [List.take_append_of_le_length (Nat.le_of_lt h), Rd.bind, h₁.2 n h]
    · rw [List.take_append, List.take_of_length_le (by omega), Rd.bind, h₁.1]
      exact h₂.2 _ (by omega)

theorem map {α β : Type} {r : Rd α} {w : Bytes} {a : α} (g : α → β) (h : ReadsBack r w a) :
    ReadsBack (r >>= fun v => Rd.pure (g v)) w (g a) := by
  have := bind (f := fun v => Rd.pure (g v)) h (pure (g a))
  simpa using this

theorem fixed {n : Nat} {w : Bytes} (h : w.length = n) : ReadsBack (Rd.fixed n) w w := by
  subst h
  refine ⟨fun rest => by simp [Rd.fixed], fun n hn => ?_⟩
  have : ¬ w.length ≤ (w.take n).length := by simp; omega
  simp only [Rd.fixed, this, if_false]

theorem byte (v : UInt8) : ReadsBack Rd.byte [v] v :=
  ⟨fun _ => rfl, fun n hn => by
    have : n = 0 := by simpa using hn
    subst this; rfl⟩

theorem conv {α : Type} {n : Nat} {w : Bytes} (g : Bytes → α) (h : w.length = n) {r : Rd α}
    (hr : ∀ b, r b = match Rd.fixed n b with
      | none => none
      | some (v, rest) => some (g v, rest)) : ReadsBack r w (g w) := by
  have := fixed h
  refine ⟨fun rest => by rw [hr, this.1], fun k hk => by rw [hr, this.2 k hk]⟩

theorem ulong {v : Nat} (h : v < 2 ^ 64) : ReadsBack Rd.ulong (wrUlong v) v := by
  have := conv (w := wrUlong v) (n := 8) ofBytes (length_beBytes 8 v) (r := Rd.ulong) (fun _ => rfl)
  rwa [wrUlong, ofBytes_beBytes 8 v h] at this

theorem word32 (v : BitVec 32) : ReadsBack Rd.word32 (wrWord32 v) v := by
  have := conv (w := wrWord32 v) (n := 4) (fun b => BitVec.ofNat 32 (ofBytes b)) (length_beBytes 4 _)
    (r := Rd.word32) (fun _ => rfl)
  rwa [wrWord32, ofBytes_beBytes 4 _ v.isLt, BitVec.ofNat_toNat, BitVec.setWidth_eq] at this

theorem int {v : Int} (h : IsInt v) : ReadsBack Rd.int (wrInt v) v := by
  have := conv (w := wrInt v) (n := 4) (fun b => (BitVec.ofNat 32 (ofBytes b)).toInt) (length_beBytes 4 _)
    (r := Rd.int) (fun _ => rfl)
  have e : (BitVec.ofInt 32 v).toInt = v := by
    rw [BitVec.toInt_ofInt]; obtain ⟨h1, h2⟩ := h
    apply Int.bmod_eq_of_le <;> omega
  rwa [wrInt, ofBytes_beBytes 4 _ (BitVec.ofInt 32 v).isLt, BitVec.ofNat_toNat, BitVec.setWidth_eq, e] at this

theorem time {v : Int} (h : IsTime v) : ReadsBack Rd.time (wrTime v) v := by
  have := conv (w := wrTime v) (n := 8) (fun b => (BitVec.ofNat 64 (ofBytes b)).toInt) (length_beBytes 8 _)
    (r := Rd.time) (fun _ => rfl)
  have e : (BitVec.ofInt 64 v).toInt = v := by
    rw [BitVec.toInt_ofInt]; obtain ⟨h1, h2⟩ := h
    apply Int.bmod_eq_of_le <;> omega
  rwa [wrTime, ofBytes_beBytes 8 _ (BitVec.ofInt 64 v).isLt, BitVec.ofNat_toNat, BitVec.setWidth_eq, e] at this

theorem array {v : Bytes} {max : Nat} (h : v.length ≤ max) (h32 : v.length < 2 ^ 32) :
    ReadsBack (Rd.array max) (wrArray v) v := by
  refine bind (word32 _) ?_
  have e : (BitVec.ofNat 32 v.length).toNat = v.length := by simp; omega
  have : ¬ v.length > max := by omega
  simp only [e, this, if_false]
  exact fixed rfl

theorem allocArray {v : Bytes} (h : v.length < 2 ^ 31) : ReadsBack Rd.allocArray (wrArray v) v := by
  have hl : IsInt v.length := by constructor <;> omega
  have hi := int hl
  have e : wrInt v.length = wrWord32 (BitVec.ofNat 32 v.length) := by
    simp [wrInt, wrWord32]
  rw [e] at hi
  refine bind hi ?_
  have : ¬ (v.length : Int) < 0 := by omega
  simp only [this, if_false, Int.toNat_natCast]
  exact fixed rfl

end ReadsBack

theorem byte_ne_zero (b : Bool) : ((if b then 1 else 0 : UInt8) != 0) = b := by cases b <;> rfl

end Verif
