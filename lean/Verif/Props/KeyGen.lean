import Verif.Model.RsaGen
import Verif.Model.Derive
import Verif.Proofs.AttrSet
import Verif.Proofs.Codec
import Verif.Props.AttrGet

/-!
# Generated and derived keys (C59, C60)
-/

namespace Verif

/-! ## C59 -/

/-- What is assumed of `wc_MakeRsaKey`: the key it makes has the exponent asked for. -/
def MkLawful (mk : Nat → Int → Option RsaKey) : Prop := ∀ n e k, mk n e = some k → (k.e : Int) = e

theorem assembleE_pad (b : Bytes) (n : Nat) : assembleE (b ++ List.replicate n 0) = ofBytes b.reverse := by
  have : ∀ n acc, (List.replicate n (0 : UInt8)).foldl (fun e x => e * 256 + x.toNat) acc = acc * 256 ^ n := by
    intro n
    induction n with
    | zero => simp
    | succ n ih => intro acc; simp [List.replicate_succ, ih, Nat.pow_succ, Nat.mul_assoc, Nat.mul_comm]
  simp only [assembleE, List.reverse_append, List.reverse_replicate, List.foldl_append, this, Nat.zero_mul]
  rfl

theorem ofBytes_mpBytes (n : Nat) : ofBytes (mpBytes n) = n := by
  apply ofBytes_beBytes
  by_cases h0 : n = 0
  · subst h0; exact Nat.pow_pos (by decide)
  · have h2 : n < 2 ^ (Nat.log2 n + 1) := Nat.lt_log2_self
    have h3 : Nat.log2 (2 * n) = Nat.log2 n + 1 := Nat.log2_two_mul h0
    have : (256 : Nat) ^ mpSize n = 2 ^ (8 * mpSize n) := by
      rw [Nat.pow_mul]
    rw [this]
    refine Nat.lt_of_lt_of_le h2 (Nat.pow_le_pow_right (by decide) ?_)
    unfold mpSize; rw [h3]; omega

/-- C59 for exponents whose big-endian bytes read the same in both directions (3, 17,
65537, ...) and that are a positive `long`, and for templates without exponent: on
success both keys of the pair have the exponent of the template (65537 if it has
none) and the same modulus.  Missing: other exponents, see `c59_violated`. -/
theorem c59_exponent_partial (mk : Nat → Int → Option RsaKey) (hmk : MkLawful mk) (pub priv pub' priv' : Obj)
    (hp : (mpBytes pub.rsa.e).reverse = mpBytes pub.rsa.e) (hl : pub.rsa.e < 2 ^ 63)
    (h : rsaGenerate mk pub priv = (.ok, pub', priv')) :
    priv'.rsa.e = (if pub.rsa.e = 0 then 65537 else pub.rsa.e) ∧ pub'.rsa.e = priv'.rsa.e ∧
      pub'.rsa.n = priv'.rsa.n := by
  have hof : ofBytes (mpBytes pub.rsa.e) = pub.rsa.e := ofBytes_mpBytes _
  unfold rsaGenerate at h
  simp only at h
  by_cases he : pub.rsa.e = 0
  · rw [if_neg (by simp [he])] at h
    split at h
    · simp at h
    · rename_i k hk
      simp only [Prod.mk.injEq, true_and] at h
      obtain ⟨rfl, rfl⟩ := h
      have := hmk _ _ _ hk
      rw [if_pos he]
      have hk' : k.e = 65537 := by omega
      exact ⟨hk', hk'.symm, rfl⟩
  · rw [if_pos he] at h
    split at h
    · simp at h
    · split at h
      · simp at h
      · rename_i k hk
        simp only [Prod.mk.injEq, true_and] at h
        obtain ⟨rfl, rfl⟩ := h
        have := hmk _ _ _ hk
        rw [eData, assembleE_pad, hp, hof] at this
        have hm : pub.rsa.e % 2 ^ 64 = pub.rsa.e := Nat.mod_eq_of_lt (by omega)
        simp only [toCLong, hm, if_pos hl] at this
        have hk' : k.e = pub.rsa.e := by omega
        rw [if_neg he]
        refine ⟨hk', ?_, rfl⟩
        exact hk'.symm

/-- A generator that follows the law. -/
def Demo.mk : Nat → Int → Option RsaKey := fun _ e =>
  if 2 < e ∧ e % 2 = 1 then some { n := 3233, e := e.toNat, d := 413, p := 61, q := 53, isPriv := true } else none

theorem Demo.mk_lawful : MkLawful Demo.mk := by
  intro n e k h
  simp only [Demo.mk] at h
  split at h
  · simp only [Option.some.injEq] at h
    subst h
    simp only; omega
  · simp at h

example :
    let pub : Obj := { typ := CKK_RSA, cls := CKO_PUBLIC_KEY, size := 2048, data := .rsa { e := 65537 } }
    (mpBytes pub.rsa.e).reverse = mpBytes pub.rsa.e ∧
      (rsaGenerate Demo.mk pub { typ := CKK_RSA, cls := CKO_PRIVATE_KEY, data := .rsa {} }).1 = .ok := by
  decide

/-- C59 fails: with exponent 259 = 0x103 in the template the private key is generated
for exponent 769 = 0x301, while the public key object keeps 259. -/
theorem c59_violated :
    ∃ (mk : Nat → Int → Option RsaKey) (pub priv pub' priv' : Obj), MkLawful mk ∧ pub.rsa.e = 259 ∧
      rsaGenerate mk pub priv = (.ok, pub', priv') ∧ pub'.rsa.e = 259 ∧ priv'.rsa.e = 769 :=
  ⟨Demo.mk, { typ := CKK_RSA, cls := CKO_PUBLIC_KEY, size := 2048, data := .rsa { e := 259 } },
    { typ := CKK_RSA, cls := CKO_PRIVATE_KEY, data := .rsa {} }, _, _, Demo.mk_lawful, rfl, rfl, rfl, by decide⟩

/-! ## C60 -/

/-- The key a derivation is to yield: the last `req` bytes of the shared secret, all
of it if the template names no length. -/
def wantedKey (secret : Bytes) (req : Nat) : Bytes :=
  if req = 0 then secret else secret.drop (secret.length - req)

theorem getAttr_valueLen (x : KeyExt) (o : Obj) (ht : o.typ = CKK_AES ∨ o.typ = CKK_GENERIC_SECRET) :
    getAttr x o .valueLen true 8 = { ret := .ok, len := 8, wr := ulong o.symm.length } := by
  have h1 : getAttr x o .valueLen true 8 = getKeyAttr x o .valueLen true 8 := rfl
  have e : getKeyAttr x o .valueLen true 8 = secretGetAttr o .valueLen true 8 := by
    unfold getKeyAttr
    rw [if_neg (by simp), if_neg (by simp [misread])]
    rcases ht with ht | ht <;> rw [if_neg (by rw [ht]; decide), if_neg (by rw [ht]; decide),
      if_neg (by rw [ht]; decide)] <;> simp [ht]
  rw [h1, e]
  have hl : (ulong o.symm.length).length = 8 := length_leBytes _ _
  simp only [secretGetAttr, getData, hl]
  rfl

/-- C60 when the template asks for no length or for at least the length of the shared
secret (and the secret fits the key buffer): the new object's key is the whole secret,
which is what was asked for unless more was, the rest of the object is as created from
the template.  Missing: a requested length less than that of the secret, a key as long
as asked for when that is more, and secrets over 512 bytes (`c60_violated_short`,
`c60_violated_long`). -/
theorem c60_key_partial (x : KeyExt) (o : Obj) (secret : Bytes)
    (ht : o.typ = CKK_AES ∨ o.typ = CKK_GENERIC_SECRET)
    (hr : o.symm.length = 0 ∨ secret.length ≤ o.symm.length) (hl : o.symm.length < 2 ^ 32) (hs : secret.length ≤ 512) :
    deriveTail x o secret = ⟨.ok, some { o with data := .symm (wantedKey secret o.symm.length) }⟩ := by
  have hn : symmKeyLen x o secret.length = some secret.length := by
    unfold symmKeyLen
    rw [getAttr_valueLen x o ht]
    have : leNat (ulong o.symm.length) = o.symm.length := by
      rw [ulong, leNat_leBytes]; exact Nat.mod_eq_of_lt (by omega)
    simp only [this, if_true]
    have hm : o.symm.length % 2 ^ 32 = o.symm.length := Nat.mod_eq_of_lt (by omega)
    rw [hm]
    by_cases h1 : 0 < o.symm.length ∧ o.symm.length ≤ secret.length
    · rw [if_pos h1]; congr 1; omega
    · rw [if_neg h1]
  have hw : wantedKey secret o.symm.length = secret := by
    unfold wantedKey
    split
    · rfl
    · rw [show secret.length - o.symm.length = 0 by omega]; rfl
  unfold deriveTail
  rw [hn, hw]
  have hm : ¬ secret.length > maxSymKey := by simp only [maxSymKey]; omega
  simp [setSecretKey, secretLen, hm]

example : deriveTail Demo.kx { typ := CKK_AES, cls := CKO_SECRET_KEY, data := .symm (List.replicate 32 0) }
    (List.replicate 32 7) = ⟨.ok, some { typ := CKK_AES, cls := CKO_SECRET_KEY, data := .symm (List.replicate 32 7) }⟩ :=
  c60_key_partial _ _ _ (.inl rfl) (.inr (by decide)) (by decide) (by decide)

/-- C60 fails for a key shorter than the secret: `C_DeriveKey` reads past the end of
the secret. -/
theorem c60_violated_short :
    ∃ (x : KeyExt) (o : Obj) (secret : Bytes), x.Lawful ∧ o.typ = CKK_AES ∧ o.symm.length = 16 ∧
      secret.length = 32 ∧ (deriveTail x o secret).rv = .ub :=
  ⟨Demo.kx, { typ := CKK_AES, cls := CKO_SECRET_KEY, data := .symm (List.replicate 16 0) }, List.replicate 32 7,
    Demo.kx_lawful, rfl, rfl, rfl, by decide⟩

/-- C60 fails for a key longer than the secret: the call succeeds with a key shorter
than asked for, here an AES key of 10 bytes, which is no AES key at all. -/
theorem c60_violated_long :
    ∃ (x : KeyExt) (o : Obj) (secret : Bytes) (o' : Obj), x.Lawful ∧ o.typ = CKK_AES ∧ o.symm.length = 16 ∧
      deriveTail x o secret = ⟨.ok, some o'⟩ ∧ o'.typ = CKK_AES ∧ o'.symm.length = 10 :=
  ⟨Demo.kx, { typ := CKK_AES, cls := CKO_SECRET_KEY, data := .symm (List.replicate 16 0) }, List.replicate 10 7,
    _, Demo.kx_lawful, rfl, rfl, rfl, rfl, by decide⟩

/-- C60 fails for a template naming a key type without CKA_VALUE_LEN, such as RSA:
`CKR_OK` is returned although no key is created. -/
theorem c60_violated_none :
    ∃ (x : KeyExt) (o : Obj) (secret : Bytes), x.Lawful ∧ o.typ = CKK_RSA ∧
      deriveTail x o secret = ⟨.ok, none⟩ :=
  ⟨Demo.kx, { typ := CKK_RSA, cls := CKO_PRIVATE_KEY, data := .rsa {} }, [1, 2, 3], Demo.kx_lawful, rfl, by decide⟩

end Verif
