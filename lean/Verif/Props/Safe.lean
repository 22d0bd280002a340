import Verif.Proofs.SafeStep
import Verif.Props.Reload

/-!
# C103: careful calls never run into undefined behaviour
-/

namespace Verif

variable {e : Env}

theorem SafeInv.run (hl : SafeLaws e) {n : Nat} {l : Lib} (hi : SafeInv n l) (cs : List Call) (hn : n + 2 * cs.length < 2 ^ 28)
    (hb : BoolToken cs) (hs : Safe e l cs) :
    (∀ r ∈ replies e l cs, r.rv ≠ .ub) ∧ (Verif.run e l cs).bad = false := by
  induction cs generalizing n l with
  | nil => exact ⟨(fun r hr => by cases hr), hi.good⟩
  | cons c cs ih =>
    rw [List.length_cons] at hn
    obtain ⟨h1, h2⟩ := hi.step hl (by omega) c (fun d hd => hb d (by cases List.mem_singleton.mp hd; exact List.mem_cons_self)) hs.1
    obtain ⟨h3, h4⟩ := ih h1 (by omega) (fun d hd => hb d (List.mem_cons_of_mem _ hd)) hs.2
    refine ⟨fun r hr => ?_, h4⟩
    rcases List.mem_cons.mp hr with rfl | hr
    · exact h2
    · exact h3 r hr

/-- C103, for callers that keep to `Safe`: in every history of calls from a fresh start no call
runs into undefined behaviour, and no list is left with a freed object in it.  Missing: the library
does not check what `Safe` asks for, `c103_violated`. -/
theorem c103_partial (hl : SafeLaws e) {l₀ : Lib} (h₀ : Start l₀) (hd : NoToken l₀) (cs : List Call)
    (hb : BoolToken cs) (hn : 2 * cs.length < 2 ^ 28) (hs : Safe e l₀ cs) :
    (∀ r ∈ replies e l₀ cs, r.rv ≠ .ub) ∧ (run e l₀ cs).bad = false := by
  refine SafeInv.run (n := 0) hl ⟨h₀.sinv, h₀.capInv hd, h₀.handleInv hd, h₀.allObj trivial ?_, h₀.bad, fun s hs => by rw [h₀.sessions] at hs; cases hs⟩ cs (by omega) hb hs
  intro f i b _ _ _ hx
  rw [hd] at hx
  cases hx

/-! ## A case -/

namespace Demo

/-- A token store that encodes every key, and signatures that are DER. -/
def safeEnv : Env := { env with
  store := { store with rsaToDer := fun _ => some [1], rsaToPubDer := fun _ => some [1], eccToDer := fun _ => some [1],
                        eccToPubDer := fun _ => some [1], rsaOfDer := fun _ => some { n := 15, e := 65537, d := 3 },
                        rsaOfPubDer := fun _ => some { n := 15, e := 65537 } }
  crypto := { x with ecdsa := { ecdsa with
    sign := fun k _ _ => if k.dp.any (fun c => decide (0 < c.size)) then some [0x30, 6, 2, 1, 1, 2, 1, 1] else none } } }

theorem safe_laws : SafeLaws safeEnv where
  hash := hashLen
  rand := randLen
  sealed := by
    refine ⟨fun k iv pt => ?_, fun k iv ct pt h => ?_, fun _ _ h => by cases h; decide, fun _ _ h => by cases h; decide,
      fun _ _ h => by cases h; decide, fun _ _ h => by cases h; decide⟩
    · show (pt ++ (k ++ List.replicate 16 0).take 16).length = _
      simp
    · simp only [safeEnv, store] at h
      split at h
      · rename_i hx
        cases h
        have := congrArg List.length hx
        simp at this
        rw [List.length_take]
        omega
      · cases h
  dhKeys n p g a b h := by
    simp only [safeEnv, env] at h
    cases h
    exact ⟨by decide, by decide⟩
  rsaStored n b x k _ := ⟨(fun h => by cases h), (fun h => by cases h)⟩
  ecStored n c k _ := ⟨(fun h => by cases h), (fun h => by cases h)⟩
  ecImport k p k' h := by
    simp only [safeEnv, env, kx] at h
    split at h
    · cases h
    · cases h; exact fun h => by cases h
  ecSign k c d n der hc h := by
    simp only [safeEnv] at h
    split at h
    · rename_i hx
      cases h
      rw [hc] at hx
      have hx : 0 < c.size := by simpa using hx
      have h1 : 1 < 256 ^ c.size := Nat.one_lt_pow (by omega) (by decide)
      have hi : Spec.IsDerInt 1 [1] := ⟨by decide, by decide, by decide, by decide⟩
      exact ⟨1, 1, ⟨[1], [1], hi, hi, by decide, by decide, by decide, by decide⟩, h1, h1⟩
    · cases h

def keyTmpl? (t : List Entry) : Bool :=
  t.all (fun en => (!(en.typ == .id || en.typ == .label) || en.mem.isSome || en.len == 0) &&
    en.typ != .ecPoint && (en.typ != .valueLen || leNat en.val ≤ 512) &&
    (en.typ != .cls || leNat en.val != CKO_CERTIFICATE) && (en.typ != .value || en.val.length ≤ 512))

theorem keyTmpl_of {t : List Entry} (h : keyTmpl? t = true) : KeyTmpl t := by
  unfold keyTmpl? at h
  rw [List.all_eq_true] at h
  simp only [Bool.and_eq_true, Bool.or_eq_true, Bool.not_eq_true', Bool.or_eq_false_iff, beq_eq_false_iff_ne, bne_iff_ne, beq_iff_eq,
    decide_eq_true_eq, Option.isSome_iff_ne_none] at h
  refine ⟨⟨?_, ?_, ?_⟩, ?_, ?_⟩
  · intro en hm hty hno
    rcases (h en hm).1.1.1.1 with (h | h) | h
    · rcases hty with hty | hty
      · exact absurd hty h.1
      · exact absurd hty h.2
    · exact absurd hno h
    · exact h
  · rintro ⟨en, hm, hty⟩
    exact absurd hty (h en hm).1.1.1.2
  · intro en hm hty
    rcases (h en hm).1.1.2 with h | h
    · exact absurd hty h
    · exact h
  · rintro ⟨en, hm, hty, hv⟩
    rcases (h en hm).1.2 with h | h
    · exact absurd hty h
    · exact absurd hv h
  · intro en hm hty
    rcases (h en hm).2 with h | h
    · exact absurd hty h
    · exact h

/-- Calls of many kinds: keys created, generated and used, read, changed, searched, destroyed, and a restart. -/
def careful : List Call :=
  setup ++
  [createCall 65538 (openTmpl true 7 ++ [.of .label [1, 2], .of .encrypt [1]]),
   Verif.pairCall 65538 .rsaKeyPairGen (.null 0) (.of .verify [1] :: rsaPub) [.of .sign [1], .of .token [1]],
   createCall 65538 (certTmpl [1, 2, 3]),
   readCall 65538 tok1 [.of .value (List.replicate 16 0), .of .label [0, 0]],
   .sess 65538 (.setAttr (tok1 + 2) (some [.of .label [3]])),
   .sess 65538 (.findInit (some [.of .label [3]])),
   .sess 65538 (.cryptInit .encrypt (some (.aesCbc, .raw (List.replicate 16 0))) tok1),
   .sess 65538 (.crypt (.encrypt (some (List.replicate 16 1)) (.buf 16) 0)),
   .sess 65538 .logout, .sess 65538 (.login .user (some userPin) 0),
   .sess 65538 (.destroy tok1), .cFinal, .cInit]

/-- A template for a certificate. -/
def certTmpl? (t : List Entry) : Bool :=
  t.all (fun en => (!(en.typ == .id || en.typ == .label) || en.mem.isSome || en.len == 0) &&
    en.typ != .ecPoint && en.typ != .valueLen && (en.typ != .cls || leNat en.val == CKO_CERTIFICATE)) &&
  t.any (fun en => en.typ == .cls)

theorem certTmpl_of {t : List Entry} (h : certTmpl? t = true) : CertTmpl t := by
  unfold certTmpl? at h
  rw [Bool.and_eq_true, List.all_eq_true, List.any_eq_true] at h
  obtain ⟨h, en, hm, hc⟩ := h
  simp only [Bool.and_eq_true, Bool.or_eq_true, Bool.not_eq_true', Bool.or_eq_false_iff, beq_eq_false_iff_ne, bne_iff_ne, beq_iff_eq,
    Option.isSome_iff_ne_none] at h hc
  have hall : ∀ en ∈ t, en.typ = .cls → leNat en.val = CKO_CERTIFICATE := fun en hm hty => (h en hm).2.resolve_left (fun hx => hx hty)
  refine ⟨⟨?_, ?_, ?_⟩, ⟨en, hm, hc, hall en hm hc⟩, hall⟩
  · intro en hm hty hno
    rcases (h en hm).1.1.1 with (h | h) | h
    · rcases hty with hty | hty
      · exact absurd hty h.1
      · exact absurd hty h.2
    · exact absurd hno h
    · exact h
  · rintro ⟨en, hm, hty⟩
    exact absurd hty (h en hm).1.1.2
  · intro en hm hty
    exact absurd hty (h en hm).1.2

/-- The objects a call may address. -/
def objs (l : Lib) (h : Nat) : List Obj := sessObjs l h ++ tokenObjs l

/-- The object may be asked for the attribute. -/
def ask? (o : Obj) (a : CKA) : Bool := (o.cls != CKO_CERTIFICATE || !keyParts.contains a) && o.typ != CKK_EC

theorem ask_of {o : Obj} {a : CKA} (h : ask? o a = true) : Askable o a := by
  unfold ask? at h
  simp only [Bool.and_eq_true, Bool.or_eq_true, bne_iff_ne, Bool.not_eq_true'] at h
  refine ⟨fun hc hm => ?_, fun ht => absurd ht h.2⟩
  have := h.1.resolve_left (fun hx => hx hc)
  rw [List.contains_iff_mem.mpr hm] at this
  cases this

/-- An Init with this key writes nothing before it is refused. -/
def fits? (o : Obj) : Mech → Bool
  | .aesCbc | .aesCbcPad => o.symm.length == 16
  | .rsaOaep | .rsaPss | .hmac _ => false
  | _ => true

theorem fits_of {e : Env} {o : Obj} {m : Mech} {p : MechParam} (h : fits? o m = true) : InitFits e o m p := by
  cases m <;> first
    | trivial
    | (cases h; done)
    | exact fun _ => Or.inl (beq_iff_eq.mp h)

/-- A test for calls that have what they need; it turns down some that have. -/
def safe? (l : Lib) : Call → Bool
  | .sess _ (.create (some t) _) => keyTmpl? t || certTmpl? t
  | .sess h (.genPair (some (m, _)) (some tp) (some tq) _) =>
      keyTmpl? tp && keyTmpl? tq && m != .ecKeyPairGen && tq.all (fun en => en.typ != .token || (en.mem.isSome && en.len == 1)) &&
      decide ((sessObjs l h).length + 2 ≤ 8) && decide ((tokenObjs l).length + 2 ≤ 64)
  | .sess h (.getAttr k (some t)) => (objs l h).all fun o => o.handle != k || t.all fun en => ask? o en.typ
  | .sess _ (.setAttr _ (some t)) => keyTmpl? t && t.all fun en => en.typ != .cls
  | .sess h (.findInit (some t)) =>
      t.all fun en => en.typ != .ecPoint && en.mem.isSome && (objs l h).all fun o => ask? o en.typ
  | .sess h (.cryptInit _ mp k) => (objs l h).all fun o => o.handle != k || (o.cls != CKO_CERTIFICATE && mp.all fun q => fits? o q.1)
  | .sess h (.crypt _) => (getSession l h).all fun s => s.op.mech != .aesGcm && s.op.mech != .ecdsa &&
      s.curr.all fun u => (objs l h).any fun o => o.uid == u
  | .sess _ (.login ..) | .sess _ .logout | .sess _ (.initPin _) | .sess _ (.destroy _) => true
  | .sess .. => false
  | _ => true

theorem safe_of {e : Env} {l : Lib} {c : Call} (h : safe? l c = true) : c.Safe e l := by
  unfold safe? at h
  split at h <;> try (cases h; done)
  · rename_i t _
    rcases Bool.or_eq_true _ _ ▸ h with h | h
    · exact Or.inl (keyTmpl_of h)
    · exact Or.inr (certTmpl_of h)
  · simp only [Bool.and_eq_true, bne_iff_ne, List.all_eq_true, Bool.or_eq_true, beq_iff_eq, decide_eq_true_eq,
      Option.isSome_iff_ne_none] at h
    obtain ⟨⟨⟨⟨⟨h1, h2⟩, h3⟩, h4⟩, h5⟩, h6⟩ := h
    exact ⟨keyTmpl_of h1, keyTmpl_of h2, (fun p hp => by cases hp; exact absurd rfl h3),
      fun en hm ht => (h4 en hm).resolve_left (fun hx => hx ht), h5, h6⟩
  · simp only [objs, bne_iff_ne, List.all_eq_true, Bool.or_eq_true] at h
    exact fun o ho en hm => ask_of ((h o ho.1).resolve_left (fun hx => hx ho.2) en hm)
  · simp only [Bool.and_eq_true, bne_iff_ne, List.all_eq_true] at h
    have hk := keyTmpl_of h.1
    exact ⟨hk.noNull, hk.curved, h.2, fun o _ => Or.inl fun en hm => ⟨hk.value en hm, hk.len en hm⟩⟩
  · simp only [objs, Bool.and_eq_true, bne_iff_ne, List.all_eq_true, Option.isSome_iff_ne_none] at h
    exact fun en hm => ⟨(h en hm).1.1, fun hn => absurd hn (h en hm).1.2, fun o ho _ => ask_of ((h en hm).2 o ho)⟩
  · simp only [objs, bne_iff_ne, List.all_eq_true, Bool.or_eq_true] at h
    intro o ho
    have h1 := (h o ho.1).resolve_left (fun hx => hx ho.2)
    rw [Bool.and_eq_true, bne_iff_ne] at h1
    refine ⟨h1.1, fun m p hm => fits_of ?_⟩
    have h2 := h1.2
    rw [hm] at h2
    exact h2
  · rename_i hs c
    have h' : ∀ s, getSession l hs = some s → (s.op.mech ≠ .aesGcm ∧ s.op.mech ≠ .ecdsa) ∧
        ∀ u, s.curr = some u → ∃ o ∈ sessObjs l hs ++ tokenObjs l, o.uid = u := by
      intro s hg
      rw [hg] at h
      simp only [Option.all_some, Bool.and_eq_true, bne_iff_ne] at h
      refine ⟨h.1, fun u hu => ?_⟩
      rw [hu] at h
      obtain ⟨o, hm, hu⟩ := List.any_eq_true.mp (show (objs l hs).any (fun o => o.uid == u) = true from h.2)
      exact ⟨o, hm, by simpa using hu⟩
    exact ⟨fun s hg => (h' s hg).2, fun s hg => ⟨fun hx => absurd hx (h' s hg).1.1, fun hx => absurd hx (h' s hg).1.2⟩⟩
  · trivial
  · trivial
  · trivial
  · trivial
  · cases c with
    | sess hh sc => rename_i hx; exact (hx _ _ rfl).elim
    | _ => trivial

/-- The test for a history. -/
def allSafe? (e : Env) (l : Lib) : List Call → Bool
  | [] => true
  | c :: cs => safe? l c && allSafe? e (step e l c).1 cs

theorem allSafe_of {e : Env} {l : Lib} {cs : List Call} (h : allSafe? e l cs = true) : Safe e l cs := by
  induction cs generalizing l with
  | nil => trivial
  | cons c cs ih =>
    rw [allSafe?, Bool.and_eq_true] at h
    exact ⟨safe_of h.1, ih h.2⟩

set_option maxRecDepth 20000 in
theorem careful_safe : Safe safeEnv fresh careful := allSafe_of (by decide)

set_option maxRecDepth 20000 in
example : (∀ r ∈ replies safeEnv fresh careful, r.rv ≠ .ub) ∧ rvs safeEnv fresh careful = List.replicate 20 .ok :=
  ⟨(c103_partial safe_laws fresh_start noToken careful (by unfold BoolToken; decide) (by decide) careful_safe).1, by decide⟩

/-- A point without a curve. -/
def bareEc : List Entry := [.of .cls (ulong CKO_PUBLIC_KEY), .of .keyType (ulong CKK_EC), .of .ecPoint [4, 3, 4, 1, 1]]

set_option maxRecDepth 20000 in
/-- C103 is violated by single calls of a user who is logged in: an EC key pair without
parameters, a secret of more than 512 bytes, a label that is NULL with a length, and a point
without a curve. -/
theorem c103_violated :
    ∀ c ∈ [Verif.pairCall 65538 .ecKeyPairGen (.null 0) [] [],
           createCall 65538 [.of .cls (ulong CKO_SECRET_KEY), .of .keyType (ulong CKK_GENERIC_SECRET), .of .value (List.replicate 513 1)],
           createCall 65538 (aesTmpl true 1 ++ [{ typ := .label, mem := none, len := 5 }]),
           createCall 65538 bareEc],
      rvs safeEnv fresh (setup ++ [c]) = List.replicate 7 .ok ++ [.ub] := by decide

set_option maxRecDepth 20000 in
/-- C103 is violated by calls on objects of another kind: a certificate asked for a modulus,
or named as the key of a verification, and a Diffie-Hellman agreement with an AES key. -/
theorem c103_violated_kind :
    ∀ p ∈ [(certTmpl [1, 2, 3], readCall 65538 tok1 [.of .modulus [0]]),
           (certTmpl [1, 2, 3], .sess 65538 (.cryptInit .verify (some (.rsaPkcs, .null 0)) tok1)),
           (openTmpl true 7, deriveCall 65538 tok1 (.dh (some [1])) (aesTmpl false 1))],
      rvs safeEnv fresh (setup ++ [createCall 65538 p.1, p.2]) = List.replicate 8 .ok ++ [.ub] := by decide

set_option maxRecDepth 20000 in
/-- C103 is violated when the key of an operation is destroyed before the data. -/
theorem c103_violated_destroyed :
    rvs safeEnv fresh (setup ++ [createCall 65538 (openTmpl false 7 ++ [.of .encrypt [1]]),
      .sess 65538 (.cryptInit .encrypt (some (.aesCbc, .raw (List.replicate 16 0))) 1), .sess 65538 (.destroy 1),
      .sess 65538 (.crypt (.encrypt (some (List.replicate 16 1)) (.buf 16) 0))]) = List.replicate 10 .ok ++ [.ub] := by decide

end Demo

end Verif
