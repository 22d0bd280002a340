import Verif.Model.StoreName

/-!
# C36: different stored items have different files
-/

namespace Verif

theorem hexDigit_inj : ∀ a < 16, ∀ b < 16, hexDigit a = hexDigit b → a = b := by decide

theorem length_hex (len n : Nat) : (hex len n).length = len := by
  induction len generalizing n with
  | zero => rfl
  | succ k ih => simp [hex, ih]

theorem hex_inj (len a b : Nat) (ha : a < 16 ^ len) (hb : b < 16 ^ len) (h : hex len a = hex len b) : a = b := by
  induction len generalizing a b with
  | zero => simp at ha hb; omega
  | succ k ih =>
    rw [Nat.pow_succ] at ha hb
    simp only [hex] at h
    obtain ⟨h1, h2⟩ := List.append_inj' h rfl
    have := ih (a / 16) (b / 16) (by omega) (by omega) h1
    have := hexDigit_inj (a % 16) (by omega) (b % 16) (by omega) (by simpa using h2)
    omega

theorem text_length (t : StoreType) : t.text.length ≤ 18 := by cases t <;> decide

theorem ids_length (t : StoreType) (a b : Nat) : (t.ids a b).length = if t = .token then 16 else 33 := by
  cases t <;> simp [StoreType.ids, length_hex]

/-- The text and the length of the ids tell the kinds apart. -/
theorem text_inj (t t' : StoreType) (h : t.text = t'.text) : t = t' := by
  cases t <;> cases t' <;> first | rfl | exact absurd h (by decide)

theorem ids_length_of (t t' : StoreType)
    (h : t.text.length + (if t = .token then 16 else 33) = t'.text.length + (if t' = .token then 16 else 33)) :
    t.text.length = t'.text.length := by
  cases t <;> cases t' <;> revert h <;> decide

/-- C36 for storage paths of at most 68 characters: the items (kind, token id, object
id) with equal names are equal (for the token's own file the object id is not part of
the item), for all ids a `CK_ULONG` can hold. -/
theorem c36_names_distinct_partial (path : List Char) (hp : path.length ≤ 68)
    (t t' : StoreType) (a a' b b' : Nat)
    (ha : a < 2 ^ 64) (ha' : a' < 2 ^ 64) (hb : b < 2 ^ 64) (hb' : b' < 2 ^ 64)
    (h : storeName path t a b = storeName path t' a' b') :
    t = t' ∧ a = a' ∧ (t ≠ .token → b = b') := by
  have hp' : ¬ path.length > 120 - 47 := by omega
  have len : ∀ (t : StoreType) a b, (path ++ t.text ++ t.ids a b).length ≤ 119 := by
    intro t a b
    have := text_length t
    simp only [List.length_append, ids_length]
    split <;> omega
  simp only [storeName, hp', if_false, Option.some.injEq] at h
  rw [List.take_of_length_le (len _ _ _), List.take_of_length_le (len _ _ _), List.append_assoc,
    List.append_assoc] at h
  have h := List.append_cancel_left h
  have hl := congrArg List.length h
  simp only [List.length_append, ids_length] at hl
  obtain ⟨h1, h2⟩ := List.append_inj h (ids_length_of t t' hl)
  have := text_inj t t' h1
  subst this
  refine ⟨rfl, ?_⟩
  have e16 : (16 : Nat) ^ 16 = 2 ^ 64 := rfl
  rw [← e16] at ha ha' hb hb'
  by_cases ht : t = .token
  · subst ht
    exact ⟨hex_inj 16 a a' ha ha' h2, by simp⟩
  · have e : ∀ a b, t.ids a b = hex 16 a ++ '_' :: hex 16 b := by intro a b; cases t <;> first | exact absurd rfl ht | rfl
    rw [e, e] at h2
    obtain ⟨h3, h4⟩ := List.append_inj h2 (by simp [length_hex])
    exact ⟨hex_inj 16 a a' ha ha' h3,
      fun _ => hex_inj 16 b b' hb hb' (List.cons.inj h4).2⟩

/-- C36 fails for the accepted paths of 69 to 73 characters: the private RSA keys
number 0 and 1 of any token get the same file. -/
theorem c36_violated (path : List Char) (h1 : 69 ≤ path.length) (h2 : path.length ≤ 73) (a : Nat) :
    ∃ n, storeName path .rsaPriv a 0 = some n ∧ storeName path .rsaPriv a 1 = some n := by
  have hp' : ¬ path.length > 120 - 47 := by omega
  refine ⟨(path ++ StoreType.rsaPriv.text ++ StoreType.rsaPriv.ids a 0).take 119, if_neg hp', ?_⟩
  simp only [storeName, hp', if_false, Option.some.injEq]
  have e : ∀ n, hex 16 n = hex 15 (n / 16) ++ [hexDigit (n % 16)] := fun n => rfl
  have key : ∀ b, b < 16 → (path ++ StoreType.rsaPriv.text ++ StoreType.rsaPriv.ids a b).take 119 =
      (path ++ StoreType.rsaPriv.text ++ hex 16 a ++ '_' :: hex 15 0).take 119 := by
    intro b hb
    have hb0 : b / 16 = 0 := by omega
    have : path ++ StoreType.rsaPriv.text ++ StoreType.rsaPriv.ids a b =
        (path ++ StoreType.rsaPriv.text ++ hex 16 a ++ '_' :: hex 15 0) ++ [hexDigit (b % 16)] := by
      simp only [StoreType.ids, e b, hb0, List.append_assoc, List.cons_append]
    rw [this, List.take_append_of_le_length]
    have : StoreType.rsaPriv.text.length = 18 := by decide
    simp only [List.length_append, List.length_cons, length_hex, this]
    omega
  rw [key 1 (by omega), key 0 (by omega)]

/-- Non-vacuity: the default path and a long one. -/
example : "/tmp".toList.length ≤ 68 ∧ storeName "/tmp".toList .cert 1 2 =
    some "/tmp/wp11_cert_0000000000000001_0000000000000002".toList := by decide

example : 69 ≤ (List.replicate 70 'a').length ∧ (List.replicate 70 'a').length ≤ 73 := by decide

end Verif
