import Verif.Props.KeyKept
import Verif.Props.StreamHist

/-!
# What was protected before can be used after (C108), and generated pairs (C82)

An operation is made with a key, then anything happens that leaves the key alone (with a key of
the token also logouts, logins, PIN changes and restarts of the library), then the inverse
operation is made.
-/

namespace Verif

variable {e : Env}

/-- A key with which an Init succeeds is not a certificate, and its session is open. -/
theorem init_open {l : Lib} {n : Nat} (hx : HandleInv n l) (hn : n < 2 ^ 28) {h k : Nat} {kd : Kind} {m : Mech} {p : MechParam}
    (hok : (answer e l (.sess h (.cryptInit kd (some (m, p)) k))).rv = .ok) :
    0 < l.count ∧ ∃ s, getSession l h = some s ∧ ∀ o, Addressed l h k o → o.cls ≠ CKO_CERTIFICATE := by
  obtain ⟨_, hcnt, s, hs, hst⟩ := sess_step hok
  refine ⟨hcnt, s, hs, fun o ho hc => ?_⟩
  unfold HandleInv at hx
  rw [if_pos hcnt] at hx
  have hf := addressed_find hx hn hs ho
  have hst : step e l (.sess h (.cryptInit kd (some (m, p)) k)) = cCryptInit e l s kd (some (m, p)) k := hst
  unfold answer at hok
  rw [hst] at hok
  simp only [cCryptInit, hf] at hok
  split at hok
  · cases hok
  · rename_i hne
    exact hne ⟨hok, hc⟩

/-- The key of an operation is the key of a later one with the same handle. -/
theorem same_key (hx : StoreLaws e.store) (hh : HashLen e) (hr : RandLen e) {l₀ : Lib} (h₀ : Start l₀) (hd : NoToken l₀)
    (cs mid : List Call) {h h' k : Nat} {kd : Kind} {m : Mech} {p : MechParam}
    (hb : BoolToken (cs ++ mid)) (hn : 2 * (cs ++ mid).length < 2 ^ 28)
    (hok : (answer e (run e l₀ cs) (.sess h (.cryptInit kd (some (m, p)) k))).rv = .ok)
    (hmid : Untouched e (run e l₀ cs) mid h h' k) (hgood : (run e l₀ (cs ++ mid)).bad = false) {o o' : Obj}
    (ho : Addressed (run e l₀ cs) h k o) (ho' : Addressed (run e l₀ (cs ++ mid)) h' k o') : o'.data = o.data := by
  have hb1 : BoolToken cs := fun d hd => hb d (List.mem_append_left _ hd)
  have hn1 : 2 * cs.length < 2 ^ 28 := by rw [List.length_append] at hn; omega
  obtain ⟨_, _, hi⟩ := reach_inv hh hr h₀ hd cs hb1 hn1
  obtain ⟨hcnt, s, hs, hcert⟩ := init_open hi hn1 hok
  exact untouched_data hx hh hr h₀ hd cs mid hb hn hcnt hs ho (hcert o ho) hmid hgood ho'

/-- `C_EncryptInit` and the other Init functions. -/
def initOf (h : Nat) (kd : Kind) (m : Mech) (p : MechParam) (k : Nat) : Call := .sess h (.cryptInit kd (some (m, p)) k)

/-- A data call. -/
def dataOf (h : Nat) (d : DataCall) : Call := .sess h (.crypt d)

/-- The proof of C108 and C138 below, from the key being the same. -/
theorem lasting_cbc_pad (ha : e.crypto.aes.Lawful) (hh : HashLen e) (hr : RandLen e)
    {l₀ : Lib} (h₀ : Start l₀) (hd : NoToken l₀) (cs enc mid dec : List Call) (h h' k n n' : Nat) (iv : Bytes)
    (hn : 16 ≤ n)
    -- the encryption: `now` is the history up to its last call
    (now : List Call) (hnow : now = cs ++ initOf h .encrypt .aesCbcPad (.raw iv) k :: enc)
    (hinit : (answer e (run e l₀ cs) (initOf h .encrypt .aesCbcPad (.raw iv) k)).rv = .ok)
    (henc : ∀ c ∈ enc, EncryptsOr h k c) (hf : Emptied (run e l₀ cs) h)
    -- the decryption: `later` is the history before it
    (later : List Call) (hlater : later = now ++ dataOf h (.encryptFinal (.buf n)) :: mid)
    (hsame : ∀ o o', Addressed (run e l₀ cs) h k o → Addressed (run e l₀ later) h' k o' → o'.data = o.data)
    (hinit' : (answer e (run e l₀ later) (initOf h' .decrypt .aesCbcPad (.raw iv) k)).rv = .ok)
    (hdec : ∀ c ∈ dec, DecryptsOr h' k c) (hf' : Emptied (run e l₀ later) h')
    (hgood : (run e l₀ (later ++ initOf h' .decrypt .aesCbcPad (.raw iv) k :: dec)).bad = false)
    -- what is handed over to the decryption is what the encryption wrote
    (hdata : handedBy (talk e h' (run e l₀ (later ++ [initOf h' .decrypt .aesCbcPad (.raw iv) k])) dec) =
      writtenBy (talk e h (run e l₀ (cs ++ [initOf h .encrypt .aesCbcPad (.raw iv) k])) enc) ++
        (answer e (run e l₀ now) (dataOf h (.encryptFinal (.buf n)))).wr) :
    (answer e (run e l₀ (later ++ initOf h' .decrypt .aesCbcPad (.raw iv) k :: dec)) (dataOf h' (.decryptFinal (.buf n')))).rv = .ok ∧
    writtenBy (talk e h' (run e l₀ (later ++ [initOf h' .decrypt .aesCbcPad (.raw iv) k])) dec) ++
      (answer e (run e l₀ (later ++ initOf h' .decrypt .aesCbcPad (.raw iv) k :: dec)) (dataOf h' (.decryptFinal (.buf n')))).wr =
    handedBy (talk e h (run e l₀ (cs ++ [initOf h .encrypt .aesCbcPad (.raw iv) k])) enc) := by
  subst hnow
  have hgl : (run e l₀ later).bad = false := by rw [run_append] at hgood; exact run_good hgood
  have hgn : (run e l₀ (cs ++ initOf h .encrypt .aesCbcPad (.raw iv) k :: enc)).bad = false := by
    rw [hlater, run_append] at hgl; exact run_good hgl
  refine c44_round_trip_history ha hh hr h₀ hd cs enc later dec h k h' k iv hf hf' hinit hinit' henc hdec n n' hn ?_ hgn hgood hdata
  intro o o' ho ho'
  have := hsame _ _ ho ho'
  unfold Obj.symm
  rw [this]

/-- **C108** for AES-CBC-PAD: a message is encrypted in parts, with other calls in between; then
come calls that leave the key alone; then the ciphertext is decrypted in parts, in the same or
in another session.  The message comes back.
Missing: what `c107_partial` leaves out. -/
theorem c108_cbc_pad_partial (hx : StoreLaws e.store) (ha : e.crypto.aes.Lawful) (hh : HashLen e) (hr : RandLen e)
    {l₀ : Lib} (h₀ : Start l₀) (hd : NoToken l₀) (cs enc mid dec : List Call) (h h' k n n' : Nat) (iv : Bytes)
    (hn : 16 ≤ n)
    -- the encryption: `now` is the history up to its last call
    (now : List Call) (hnow : now = cs ++ initOf h .encrypt .aesCbcPad (.raw iv) k :: enc)
    (hinit : (answer e (run e l₀ cs) (initOf h .encrypt .aesCbcPad (.raw iv) k)).rv = .ok)
    (henc : ∀ c ∈ enc, EncryptsOr h k c) (hf : Emptied (run e l₀ cs) h)
    -- the decryption: `later` is the history before it
    (later : List Call) (hlater : later = now ++ dataOf h (.encryptFinal (.buf n)) :: mid)
    (hmid : Untouched e (run e l₀ cs)
      (initOf h .encrypt .aesCbcPad (.raw iv) k :: enc ++ dataOf h (.encryptFinal (.buf n)) :: mid) h h' k)
    (hinit' : (answer e (run e l₀ later) (initOf h' .decrypt .aesCbcPad (.raw iv) k)).rv = .ok)
    (hdec : ∀ c ∈ dec, DecryptsOr h' k c) (hf' : Emptied (run e l₀ later) h')
    (hb : BoolToken later) (hlen : 2 * later.length < 2 ^ 28)
    (hgood : (run e l₀ (later ++ initOf h' .decrypt .aesCbcPad (.raw iv) k :: dec)).bad = false)
    -- what is handed over to the decryption is what the encryption wrote
    (hdata : handedBy (talk e h' (run e l₀ (later ++ [initOf h' .decrypt .aesCbcPad (.raw iv) k])) dec) =
      writtenBy (talk e h (run e l₀ (cs ++ [initOf h .encrypt .aesCbcPad (.raw iv) k])) enc) ++
        (answer e (run e l₀ now) (dataOf h (.encryptFinal (.buf n)))).wr) :
    (answer e (run e l₀ (later ++ initOf h' .decrypt .aesCbcPad (.raw iv) k :: dec)) (dataOf h' (.decryptFinal (.buf n')))).rv = .ok ∧
    writtenBy (talk e h' (run e l₀ (later ++ [initOf h' .decrypt .aesCbcPad (.raw iv) k])) dec) ++
      (answer e (run e l₀ (later ++ initOf h' .decrypt .aesCbcPad (.raw iv) k :: dec)) (dataOf h' (.decryptFinal (.buf n')))).wr =
    handedBy (talk e h (run e l₀ (cs ++ [initOf h .encrypt .aesCbcPad (.raw iv) k])) enc) := by
  refine lasting_cbc_pad ha hh hr h₀ hd cs enc mid dec h h' k n n' iv hn now hnow hinit henc hf later hlater ?_ hinit' hdec hf' hgood hdata
  intro o o' q q'
  have hgl : (run e l₀ later).bad = false := by rw [run_append] at hgood; exact run_good hgood
  subst hnow
  rw [hlater, List.append_assoc] at q' hb hlen hgl
  exact same_key hx hh hr h₀ hd cs _ hb hlen hinit hmid hgl q q'

/-- A data call after an Init and calls that do not concern it, with the session it is made in. -/
theorem one_shot_at (hh : HashLen e) (hr : RandLen e) {l₀ : Lib} (h₀ : Start l₀) (hd : NoToken l₀) (cs cs' : List Call)
    (h k : Nat) (kd : Kind) (m : Mech) (p : MechParam)
    (hok : (answer e (run e l₀ cs) (initOf h kd m p k)).rv = .ok) (hcs : ∀ c ∈ cs', Bystander h k c)
    (hgood : (run e l₀ (cs ++ initOf h kd m p k :: cs')).bad = false) :
    ∃ s o st, getSession (run e l₀ cs) h = some s ∧ Addressed (run e l₀ cs) h k o ∧
      initCall e.crypto kd s.op o m p = (st, .ok) ∧
      ∀ d, answer e (run e l₀ (cs ++ initOf h kd m p k :: cs')) (dataOf h d) =
        { rv := (d.run e.crypto st (some o)).2.rv, out := some (d.run e.crypto st (some o)).2 } := by
  obtain ⟨s, o, st, h1, h2, h3, _, _, h6⟩ := op_history hh hr h₀ hd cs cs' h k kd m p hok (fun c hc => .inl (hcs c hc)) hgood
  rw [bystanders_no_data hcs] at h6
  exact ⟨s, o, st, h1, h2, h3, h6⟩

/-- The proof of C108 and C138 below, from the key being the same. -/
theorem lasting_cbc_pad_single (ha : e.crypto.aes.Lawful) (hh : HashLen e) (hr : RandLen e)
    {l₀ : Lib} (h₀ : Start l₀) (hd : NoToken l₀) (cs cs₁ mid cs₂ : List Call) (h h' k n n' rnd rnd' : Nat) (iv msg : Bytes)
    (hn : msg.length ≤ n)
    (now : List Call) (hnow : now = cs ++ initOf h .encrypt .aesCbcPad (.raw iv) k :: cs₁)
    (hinit : (answer e (run e l₀ cs) (initOf h .encrypt .aesCbcPad (.raw iv) k)).rv = .ok)
    (hcs₁ : ∀ c ∈ cs₁, Bystander h k c) (hf : Emptied (run e l₀ cs) h)
    (later : List Call) (hlater : later = now ++ dataOf h (.encrypt (some msg) (.buf n) rnd) :: mid)
    (hsame : ∀ o o', Addressed (run e l₀ cs) h k o → Addressed (run e l₀ later) h' k o' → o'.data = o.data)
    (hinit' : (answer e (run e l₀ later) (initOf h' .decrypt .aesCbcPad (.raw iv) k)).rv = .ok)
    (hcs₂ : ∀ c ∈ cs₂, Bystander h' k c) (hf' : Emptied (run e l₀ later) h')
    (hgood : (run e l₀ (later ++ initOf h' .decrypt .aesCbcPad (.raw iv) k :: cs₂)).bad = false) :
    (answer e (run e l₀ now) (dataOf h (.encrypt (some msg) (.buf n) rnd))).rv = .ok ∧
    (answer e (run e l₀ (later ++ initOf h' .decrypt .aesCbcPad (.raw iv) k :: cs₂))
      (dataOf h' (.decrypt (some (answer e (run e l₀ now) (dataOf h (.encrypt (some msg) (.buf n) rnd))).wr) (.buf n') rnd'))).rv = .ok ∧
    (answer e (run e l₀ (later ++ initOf h' .decrypt .aesCbcPad (.raw iv) k :: cs₂))
      (dataOf h' (.decrypt (some (answer e (run e l₀ now) (dataOf h (.encrypt (some msg) (.buf n) rnd))).wr) (.buf n') rnd'))).wr = msg := by
  subst hnow
  have hgl : (run e l₀ later).bad = false := by rw [run_append] at hgood; exact run_good hgood
  have hgn : (run e l₀ (cs ++ initOf h .encrypt .aesCbcPad (.raw iv) k :: cs₁)).bad = false := by
    rw [hlater, run_append] at hgl; exact run_good hgl
  obtain ⟨s, o, s1, a0, a1, a2, a3⟩ := one_shot_at hh hr h₀ hd cs cs₁ h k .encrypt .aesCbcPad (.raw iv) hinit hcs₁ hgn
  obtain ⟨u, o', u1, b0, b1, b2, b3⟩ := one_shot_at hh hr h₀ hd later cs₂ h' k .decrypt .aesCbcPad (.raw iv) hinit' hcs₂ hgood
  have hu := hf'.get b0
  have hkey : o'.data = o.data := hsame _ _ a1 b1
  have hsym : o'.symm = o.symm := by unfold Obj.symm; rw [hkey]
  obtain ⟨g1, _, g3, g4⟩ := c44_single_part e.crypto ha s.op s1 u.op u1 o o' hsym iv msg n n' rnd rnd' hn a2 (hf.get a0) b2 hu
  rw [a3, b3]
  exact ⟨g1, g3, g4⟩

/-- **C108** for AES-CBC-PAD in one part: what `C_Encrypt` answered is given back by `C_Decrypt`
later. -/
theorem c108_cbc_pad_single_partial (hx : StoreLaws e.store) (ha : e.crypto.aes.Lawful) (hh : HashLen e) (hr : RandLen e)
    {l₀ : Lib} (h₀ : Start l₀) (hd : NoToken l₀) (cs cs₁ mid cs₂ : List Call) (h h' k n n' rnd rnd' : Nat) (iv msg : Bytes)
    (hn : msg.length ≤ n)
    (now : List Call) (hnow : now = cs ++ initOf h .encrypt .aesCbcPad (.raw iv) k :: cs₁)
    (hinit : (answer e (run e l₀ cs) (initOf h .encrypt .aesCbcPad (.raw iv) k)).rv = .ok)
    (hcs₁ : ∀ c ∈ cs₁, Bystander h k c) (hf : Emptied (run e l₀ cs) h)
    (later : List Call) (hlater : later = now ++ dataOf h (.encrypt (some msg) (.buf n) rnd) :: mid)
    (hmid : Untouched e (run e l₀ cs)
      (initOf h .encrypt .aesCbcPad (.raw iv) k :: cs₁ ++ dataOf h (.encrypt (some msg) (.buf n) rnd) :: mid) h h' k)
    (hinit' : (answer e (run e l₀ later) (initOf h' .decrypt .aesCbcPad (.raw iv) k)).rv = .ok)
    (hcs₂ : ∀ c ∈ cs₂, Bystander h' k c) (hf' : Emptied (run e l₀ later) h')
    (hb : BoolToken later) (hlen : 2 * later.length < 2 ^ 28)
    (hgood : (run e l₀ (later ++ initOf h' .decrypt .aesCbcPad (.raw iv) k :: cs₂)).bad = false) :
    (answer e (run e l₀ now) (dataOf h (.encrypt (some msg) (.buf n) rnd))).rv = .ok ∧
    (answer e (run e l₀ (later ++ initOf h' .decrypt .aesCbcPad (.raw iv) k :: cs₂))
      (dataOf h' (.decrypt (some (answer e (run e l₀ now) (dataOf h (.encrypt (some msg) (.buf n) rnd))).wr) (.buf n') rnd'))).rv = .ok ∧
    (answer e (run e l₀ (later ++ initOf h' .decrypt .aesCbcPad (.raw iv) k :: cs₂))
      (dataOf h' (.decrypt (some (answer e (run e l₀ now) (dataOf h (.encrypt (some msg) (.buf n) rnd))).wr) (.buf n') rnd'))).wr = msg := by
  refine lasting_cbc_pad_single ha hh hr h₀ hd cs cs₁ mid cs₂ h h' k n n' rnd rnd' iv msg hn now hnow hinit hcs₁ hf later hlater ?_ hinit' hcs₂ hf' hgood
  intro o o' q q'
  have hgl : (run e l₀ later).bad = false := by rw [run_append] at hgood; exact run_good hgood
  subst hnow
  rw [hlater, List.append_assoc] at q' hb hlen hgl
  exact same_key hx hh hr h₀ hd cs _ hb hlen hinit hmid hgl q q'

/-- The proof of C108 and C138 below, from the key being the same. -/
theorem lasting_cbc (ha : e.crypto.aes.Lawful) (hh : HashLen e) (hr : RandLen e)
    {l₀ : Lib} (h₀ : Start l₀) (hd : NoToken l₀) (cs enc mid dec : List Call) (h h' k n n' : Nat) (iv : Bytes)
    (now : List Call) (hnow : now = cs ++ initOf h .encrypt .aesCbc (.raw iv) k :: enc)
    (hinit : (answer e (run e l₀ cs) (initOf h .encrypt .aesCbc (.raw iv) k)).rv = .ok)
    (henc : ∀ c ∈ enc, EncryptsOr h k c) (hf : Emptied (run e l₀ cs) h)
    (hend : (answer e (run e l₀ now) (dataOf h (.encryptFinal (.buf n)))).rv = .ok)
    (later : List Call) (hlater : later = now ++ dataOf h (.encryptFinal (.buf n)) :: mid)
    (hsame : ∀ o o', Addressed (run e l₀ cs) h k o → Addressed (run e l₀ later) h' k o' → o'.data = o.data)
    (hinit' : (answer e (run e l₀ later) (initOf h' .decrypt .aesCbc (.raw iv) k)).rv = .ok)
    (hdec : ∀ c ∈ dec, DecryptsOr h' k c) (hf' : Emptied (run e l₀ later) h')
    (hgood : (run e l₀ (later ++ initOf h' .decrypt .aesCbc (.raw iv) k :: dec)).bad = false)
    (hdata : handedBy (talk e h' (run e l₀ (later ++ [initOf h' .decrypt .aesCbc (.raw iv) k])) dec) =
      writtenBy (talk e h (run e l₀ (cs ++ [initOf h .encrypt .aesCbc (.raw iv) k])) enc)) :
    (answer e (run e l₀ (later ++ initOf h' .decrypt .aesCbc (.raw iv) k :: dec)) (dataOf h' (.decryptFinal (.buf n')))).rv = .ok ∧
    writtenBy (talk e h' (run e l₀ (later ++ [initOf h' .decrypt .aesCbc (.raw iv) k])) dec) =
      handedBy (talk e h (run e l₀ (cs ++ [initOf h .encrypt .aesCbc (.raw iv) k])) enc) := by
  subst hnow
  have hgl : (run e l₀ later).bad = false := by rw [run_append] at hgood; exact run_good hgood
  have hgn : (run e l₀ (cs ++ initOf h .encrypt .aesCbc (.raw iv) k :: enc)).bad = false := by
    rw [hlater, run_append] at hgl; exact run_good hgl
  obtain ⟨s, o, st, us, a1, a2, a3, a4, a5, _, a6⟩ := enc_history hh hr h₀ hd cs enc h k .aesCbc (.raw iv) hinit henc hgn
  obtain ⟨g1, g2⟩ := c43_encrypt_split e.crypto s.op st o iv us a3 (hf.get a1)
  obtain ⟨_, hiv, hkl⟩ := cbcInit_ok a3
  obtain ⟨o', b1, b2, b3⟩ := c43_decrypt_history hh hr h₀ hd later dec h' k iv hf' hinit' hdec hgood
  have hkey : o'.data = o.data := hsame _ _ a2 b1
  have hsym : o'.symm = o.symm := by unfold Obj.symm; rw [hkey]
  unfold initOf dataOf at *
  rw [a6] at hend
  have h16 := g2 n
  have hend : (encryptFinal e.crypto (runCalls (encCalls e.crypto o) st us).1 (some o) (.buf n)).2.rv = .ok := hend
  rw [hend] at h16
  have h16 : (accepted us (runCalls (encCalls e.crypto o) st us).2).length % 16 = 0 := by
    split at h16
    · assumption
    · cases h16
  rw [a5] at hdata
  rw [b3, b2, hdata, a4, g1, hsym]
  refine ⟨if_pos ?_, cbcDec_cbcEnc (ha _ hkl) iv _ hiv h16⟩
  rw [(cbcEnc_length (ha _ hkl) iv _ hiv).1]
  omega

/-- **C108** for AES-CBC in parts: when the encryption was ended with success, what it wrote is
decrypted to what was handed over to it. -/
theorem c108_cbc_partial (hx : StoreLaws e.store) (ha : e.crypto.aes.Lawful) (hh : HashLen e) (hr : RandLen e)
    {l₀ : Lib} (h₀ : Start l₀) (hd : NoToken l₀) (cs enc mid dec : List Call) (h h' k n n' : Nat) (iv : Bytes)
    (now : List Call) (hnow : now = cs ++ initOf h .encrypt .aesCbc (.raw iv) k :: enc)
    (hinit : (answer e (run e l₀ cs) (initOf h .encrypt .aesCbc (.raw iv) k)).rv = .ok)
    (henc : ∀ c ∈ enc, EncryptsOr h k c) (hf : Emptied (run e l₀ cs) h)
    (hend : (answer e (run e l₀ now) (dataOf h (.encryptFinal (.buf n)))).rv = .ok)
    (later : List Call) (hlater : later = now ++ dataOf h (.encryptFinal (.buf n)) :: mid)
    (hmid : Untouched e (run e l₀ cs)
      (initOf h .encrypt .aesCbc (.raw iv) k :: enc ++ dataOf h (.encryptFinal (.buf n)) :: mid) h h' k)
    (hinit' : (answer e (run e l₀ later) (initOf h' .decrypt .aesCbc (.raw iv) k)).rv = .ok)
    (hdec : ∀ c ∈ dec, DecryptsOr h' k c) (hf' : Emptied (run e l₀ later) h')
    (hb : BoolToken later) (hlen : 2 * later.length < 2 ^ 28)
    (hgood : (run e l₀ (later ++ initOf h' .decrypt .aesCbc (.raw iv) k :: dec)).bad = false)
    (hdata : handedBy (talk e h' (run e l₀ (later ++ [initOf h' .decrypt .aesCbc (.raw iv) k])) dec) =
      writtenBy (talk e h (run e l₀ (cs ++ [initOf h .encrypt .aesCbc (.raw iv) k])) enc)) :
    (answer e (run e l₀ (later ++ initOf h' .decrypt .aesCbc (.raw iv) k :: dec)) (dataOf h' (.decryptFinal (.buf n')))).rv = .ok ∧
    writtenBy (talk e h' (run e l₀ (later ++ [initOf h' .decrypt .aesCbc (.raw iv) k])) dec) =
      handedBy (talk e h (run e l₀ (cs ++ [initOf h .encrypt .aesCbc (.raw iv) k])) enc) := by
  refine lasting_cbc ha hh hr h₀ hd cs enc mid dec h h' k n n' iv now hnow hinit henc hf hend later hlater ?_ hinit' hdec hf' hgood hdata
  intro o o' q q'
  have hgl : (run e l₀ later).bad = false := by rw [run_append] at hgood; exact run_good hgood
  subst hnow
  rw [hlater, List.append_assoc] at q' hb hlen hgl
  exact same_key hx hh hr h₀ hd cs _ hb hlen hinit hmid hgl q q'

/-- The proof of C108 and C138 below, from the key being the same. -/
theorem lasting_gcm (ha : e.crypto.gcm.Lawful) (hh : HashLen e) (hr : RandLen e)
    {l₀ : Lib} (h₀ : Start l₀) (hd : NoToken l₀) (cs cs₁ mid cs₂ : List Call) (h h' k n n' rnd rnd' t : Nat) (iv msg : Bytes)
    (aad : Option Bytes) (w : Out) (ht : t ≤ 128) (hn : msg.length ≤ n') (hmsg : msg.length < 2 ^ 31)
    (now : List Call) (hnow : now = cs ++ initOf h .encrypt .aesGcm (.gcm iv aad t) k :: cs₁)
    (hinit : (answer e (run e l₀ cs) (initOf h .encrypt .aesGcm (.gcm iv aad t) k)).rv = .ok)
    (hcs₁ : ∀ c ∈ cs₁, Bystander h k c)
    (henc : answer e (run e l₀ now) (dataOf h (.encrypt (some msg) (.buf n) rnd)) = { rv := .ok, out := some w })
    (later : List Call) (hlater : later = now ++ dataOf h (.encrypt (some msg) (.buf n) rnd) :: mid)
    (hsame : ∀ o o', Addressed (run e l₀ cs) h k o → Addressed (run e l₀ later) h' k o' → o'.data = o.data)
    (hinit' : (answer e (run e l₀ later) (initOf h' .decrypt .aesGcm (.gcm iv aad t) k)).rv = .ok)
    (hcs₂ : ∀ c ∈ cs₂, Bystander h' k c)
    (hgood : (run e l₀ (later ++ initOf h' .decrypt .aesGcm (.gcm iv aad t) k :: cs₂)).bad = false) :
    answer e (run e l₀ (later ++ initOf h' .decrypt .aesGcm (.gcm iv aad t) k :: cs₂))
      (dataOf h' (.decrypt (some w.wr) (.buf n') rnd')) =
      { rv := .ok, out := some { rv := .ok, wr := msg, len := some msg.length } } := by
  subst hnow
  have hgl : (run e l₀ later).bad = false := by rw [run_append] at hgood; exact run_good hgood
  have hgn : (run e l₀ (cs ++ initOf h .encrypt .aesGcm (.gcm iv aad t) k :: cs₁)).bad = false := by
    rw [hlater, run_append] at hgl; exact run_good hgl
  obtain ⟨s, o, s1, a1, a2, a3⟩ := one_shot hh hr h₀ hd cs cs₁ h k .encrypt .aesGcm (.gcm iv aad t) hinit hcs₁ hgn
  obtain ⟨u, o', u1, b1, b2, b3⟩ := one_shot hh hr h₀ hd later cs₂ h' k .decrypt .aesGcm (.gcm iv aad t) hinit' hcs₂ hgood
  have hkey : o'.data = o.data := hsame _ _ a1 b1
  have hsym : o'.symm = o.symm := by unfold Obj.symm; rw [hkey]
  unfold dataOf at henc ⊢
  unfold initOf at henc
  rw [a3] at henc
  injection henc with g1 _ _ _ _ g2
  have g2 := Option.some.inj g2
  have key := (c47_round_trip e.crypto ha s s1 u u1 o o' hsym iv msg aad t n n' rnd rnd' a2 b2 g1 ht hn hmsg).2.2
  unfold initOf
  rw [b3, ← g2]
  show Resp.mk _ _ _ _ _ _ _ _ = _
  simp only [DataCall.run]
  rw [key]

/-- **C108** for AES-GCM in one part. -/
theorem c108_gcm_partial (hx : StoreLaws e.store) (ha : e.crypto.gcm.Lawful) (hh : HashLen e) (hr : RandLen e)
    {l₀ : Lib} (h₀ : Start l₀) (hd : NoToken l₀) (cs cs₁ mid cs₂ : List Call) (h h' k n n' rnd rnd' t : Nat) (iv msg : Bytes)
    (aad : Option Bytes) (w : Out) (ht : t ≤ 128) (hn : msg.length ≤ n') (hmsg : msg.length < 2 ^ 31)
    (now : List Call) (hnow : now = cs ++ initOf h .encrypt .aesGcm (.gcm iv aad t) k :: cs₁)
    (hinit : (answer e (run e l₀ cs) (initOf h .encrypt .aesGcm (.gcm iv aad t) k)).rv = .ok)
    (hcs₁ : ∀ c ∈ cs₁, Bystander h k c)
    (henc : answer e (run e l₀ now) (dataOf h (.encrypt (some msg) (.buf n) rnd)) = { rv := .ok, out := some w })
    (later : List Call) (hlater : later = now ++ dataOf h (.encrypt (some msg) (.buf n) rnd) :: mid)
    (hmid : Untouched e (run e l₀ cs)
      (initOf h .encrypt .aesGcm (.gcm iv aad t) k :: cs₁ ++ dataOf h (.encrypt (some msg) (.buf n) rnd) :: mid) h h' k)
    (hinit' : (answer e (run e l₀ later) (initOf h' .decrypt .aesGcm (.gcm iv aad t) k)).rv = .ok)
    (hcs₂ : ∀ c ∈ cs₂, Bystander h' k c)
    (hb : BoolToken later) (hlen : 2 * later.length < 2 ^ 28)
    (hgood : (run e l₀ (later ++ initOf h' .decrypt .aesGcm (.gcm iv aad t) k :: cs₂)).bad = false) :
    answer e (run e l₀ (later ++ initOf h' .decrypt .aesGcm (.gcm iv aad t) k :: cs₂))
      (dataOf h' (.decrypt (some w.wr) (.buf n') rnd')) =
      { rv := .ok, out := some { rv := .ok, wr := msg, len := some msg.length } } := by
  refine lasting_gcm ha hh hr h₀ hd cs cs₁ mid cs₂ h h' k n n' rnd rnd' t iv msg aad w ht hn hmsg now hnow hinit hcs₁ henc later hlater ?_ hinit' hcs₂ hgood
  intro o o' q q'
  have hgl : (run e l₀ later).bad = false := by rw [run_append] at hgood; exact run_good hgood
  subst hnow
  rw [hlater, List.append_assoc] at q' hb hlen hgl
  exact same_key hx hh hr h₀ hd cs _ hb hlen hinit hmid hgl q q'

/-- The proof of C108 and C138 below, from the key being the same. -/
theorem lasting_cbc_single (ha : e.crypto.aes.Lawful) (hh : HashLen e) (hr : RandLen e)
    {l₀ : Lib} (h₀ : Start l₀) (hd : NoToken l₀) (cs cs₁ mid cs₂ : List Call) (h h' k n n' rnd rnd' : Nat) (iv msg : Bytes)
    (hmsg : msg.length % 16 = 0) (hn : msg.length ≤ n) (hn' : msg.length ≤ n')
    (now : List Call) (hnow : now = cs ++ initOf h .encrypt .aesCbc (.raw iv) k :: cs₁)
    (hinit : (answer e (run e l₀ cs) (initOf h .encrypt .aesCbc (.raw iv) k)).rv = .ok)
    (hcs₁ : ∀ c ∈ cs₁, Bystander h k c)
    (later : List Call) (hlater : later = now ++ dataOf h (.encrypt (some msg) (.buf n) rnd) :: mid)
    (hsame : ∀ o o', Addressed (run e l₀ cs) h k o → Addressed (run e l₀ later) h' k o' → o'.data = o.data)
    (hinit' : (answer e (run e l₀ later) (initOf h' .decrypt .aesCbc (.raw iv) k)).rv = .ok)
    (hcs₂ : ∀ c ∈ cs₂, Bystander h' k c)
    (hgood : (run e l₀ (later ++ initOf h' .decrypt .aesCbc (.raw iv) k :: cs₂)).bad = false) :
    (answer e (run e l₀ now) (dataOf h (.encrypt (some msg) (.buf n) rnd))).rv = .ok ∧
    answer e (run e l₀ (later ++ initOf h' .decrypt .aesCbc (.raw iv) k :: cs₂))
      (dataOf h' (.decrypt (some (answer e (run e l₀ now) (dataOf h (.encrypt (some msg) (.buf n) rnd))).wr) (.buf n') rnd')) =
      { rv := .ok, out := some { rv := .ok, wr := msg, len := some msg.length } } := by
  subst hnow
  have hgl : (run e l₀ later).bad = false := by rw [run_append] at hgood; exact run_good hgood
  have hgn : (run e l₀ (cs ++ initOf h .encrypt .aesCbc (.raw iv) k :: cs₁)).bad = false := by
    rw [hlater, run_append] at hgl; exact run_good hgl
  obtain ⟨s, o, s1, a0, a1, a2, a3⟩ := one_shot_at hh hr h₀ hd cs cs₁ h k .encrypt .aesCbc (.raw iv) hinit hcs₁ hgn
  obtain ⟨u, o', u1, b0, b1, b2, b3⟩ := one_shot_at hh hr h₀ hd later cs₂ h' k .decrypt .aesCbc (.raw iv) hinit' hcs₂ hgood
  have hkey : o'.data = o.data := hsame _ _ a1 b1
  have hsym : o'.symm = o.symm := by unfold Obj.symm; rw [hkey]
  obtain ⟨_, hiv, hkl⟩ := cbcInit_ok a2
  have g1 : DataCall.run e.crypto s1 (some o) (.encrypt (some msg) (.buf n) rnd) = encrypt e.crypto s1 (some o) (some msg) (.buf n) rnd := rfl
  have g2 := (c43_single_part e.crypto s.op s1 o iv msg n rnd hmsg hn).1 a2
  have hl : (Spec.cbcEnc (e.crypto.aes.enc o.symm) iv msg).1.length = msg.length := by
    rw [(cbcEnc_length (ha _ hkl) iv _ hiv).1]; omega
  have g3 := (c43_single_part e.crypto u.op u1 o' iv (Spec.cbcEnc (e.crypto.aes.enc o.symm) iv msg).1 n' rnd' (by rw [hl]; exact hmsg) (by rw [hl]; exact hn')).2 b2
  rw [hsym, cbcDec_cbcEnc (ha _ hkl) iv _ hiv hmsg, hl] at g3
  rw [a3, g1, g2]
  refine ⟨rfl, ?_⟩
  rw [b3]
  have g4 : ∀ w : Bytes, DataCall.run e.crypto u1 (some o') (.decrypt (some w) (.buf n') rnd') = decrypt e.crypto u1 (some o') (some w) (.buf n') rnd' := fun _ => rfl
  have g5 : (Resp.wr { rv := .ok, out := some { rv := .ok, wr := (Spec.cbcEnc (e.crypto.aes.enc o.symm) iv msg).1, len := some msg.length } }) =
    (Spec.cbcEnc (e.crypto.aes.enc o.symm) iv msg).1 := rfl
  rw [g5, g4, g3]

/-- **C108** for AES-CBC in one part, messages of whole blocks.  What an abandoned operation left in the
session makes no difference here. -/
theorem c108_cbc_single_partial (hx : StoreLaws e.store) (ha : e.crypto.aes.Lawful) (hh : HashLen e) (hr : RandLen e)
    {l₀ : Lib} (h₀ : Start l₀) (hd : NoToken l₀) (cs cs₁ mid cs₂ : List Call) (h h' k n n' rnd rnd' : Nat) (iv msg : Bytes)
    (hmsg : msg.length % 16 = 0) (hn : msg.length ≤ n) (hn' : msg.length ≤ n')
    (now : List Call) (hnow : now = cs ++ initOf h .encrypt .aesCbc (.raw iv) k :: cs₁)
    (hinit : (answer e (run e l₀ cs) (initOf h .encrypt .aesCbc (.raw iv) k)).rv = .ok)
    (hcs₁ : ∀ c ∈ cs₁, Bystander h k c)
    (later : List Call) (hlater : later = now ++ dataOf h (.encrypt (some msg) (.buf n) rnd) :: mid)
    (hmid : Untouched e (run e l₀ cs)
      (initOf h .encrypt .aesCbc (.raw iv) k :: cs₁ ++ dataOf h (.encrypt (some msg) (.buf n) rnd) :: mid) h h' k)
    (hinit' : (answer e (run e l₀ later) (initOf h' .decrypt .aesCbc (.raw iv) k)).rv = .ok)
    (hcs₂ : ∀ c ∈ cs₂, Bystander h' k c)
    (hb : BoolToken later) (hlen : 2 * later.length < 2 ^ 28)
    (hgood : (run e l₀ (later ++ initOf h' .decrypt .aesCbc (.raw iv) k :: cs₂)).bad = false) :
    (answer e (run e l₀ now) (dataOf h (.encrypt (some msg) (.buf n) rnd))).rv = .ok ∧
    answer e (run e l₀ (later ++ initOf h' .decrypt .aesCbc (.raw iv) k :: cs₂))
      (dataOf h' (.decrypt (some (answer e (run e l₀ now) (dataOf h (.encrypt (some msg) (.buf n) rnd))).wr) (.buf n') rnd')) =
      { rv := .ok, out := some { rv := .ok, wr := msg, len := some msg.length } } := by
  refine lasting_cbc_single ha hh hr h₀ hd cs cs₁ mid cs₂ h h' k n n' rnd rnd' iv msg hmsg hn hn' now hnow hinit hcs₁ later hlater ?_ hinit' hcs₂ hgood
  intro o o' q q'
  have hgl : (run e l₀ later).bad = false := by rw [run_append] at hgood; exact run_good hgood
  subst hnow
  rw [hlater, List.append_assoc] at q' hb hlen hgl
  exact same_key hx hh hr h₀ hd cs _ hb hlen hinit hmid hgl q q'

/-- The proof of C108 and C138 below, from the key being the same. -/
theorem lasting_gcm_parts (ha : e.crypto.gcm.Lawful) (hh : HashLen e) (hr : RandLen e)
    {l₀ : Lib} (h₀ : Start l₀) (hd : NoToken l₀) (cs cs₁ mid dec : List Call) (h h' k n n' rnd t : Nat) (iv msg : Bytes)
    (aad : Option Bytes) (w : Out) (ht : t ≤ 128) (hn : msg.length ≤ n') (hmsg : msg.length < 2 ^ 31)
    (now : List Call) (hnow : now = cs ++ initOf h .encrypt .aesGcm (.gcm iv aad t) k :: cs₁)
    (hinit : (answer e (run e l₀ cs) (initOf h .encrypt .aesGcm (.gcm iv aad t) k)).rv = .ok)
    (hcs₁ : ∀ c ∈ cs₁, Bystander h k c)
    (henc : answer e (run e l₀ now) (dataOf h (.encrypt (some msg) (.buf n) rnd)) = { rv := .ok, out := some w })
    (later : List Call) (hlater : later = now ++ dataOf h (.encrypt (some msg) (.buf n) rnd) :: mid)
    (hsame : ∀ o o', Addressed (run e l₀ cs) h k o → Addressed (run e l₀ later) h' k o' → o'.data = o.data)
    (hinit' : (answer e (run e l₀ later) (initOf h' .decrypt .aesGcm (.gcm iv aad t) k)).rv = .ok)
    (hdec : ∀ c ∈ dec, DecryptsOr h' k c)
    (hgood : (run e l₀ (later ++ initOf h' .decrypt .aesGcm (.gcm iv aad t) k :: dec)).bad = false)
    (hdata : handedBy (talk e h' (run e l₀ (later ++ [initOf h' .decrypt .aesGcm (.gcm iv aad t) k])) dec) = w.wr) :
    writtenBy (talk e h' (run e l₀ (later ++ [initOf h' .decrypt .aesGcm (.gcm iv aad t) k])) dec) = [] ∧
    answer e (run e l₀ (later ++ initOf h' .decrypt .aesGcm (.gcm iv aad t) k :: dec)) (dataOf h' (.decryptFinal (.buf n'))) =
      { rv := .ok, out := some { rv := .ok, wr := msg, len := some msg.length } } := by
  subst hnow
  have hgl : (run e l₀ later).bad = false := by rw [run_append] at hgood; exact run_good hgood
  have hgn : (run e l₀ (cs ++ initOf h .encrypt .aesGcm (.gcm iv aad t) k :: cs₁)).bad = false := by
    rw [hlater, run_append] at hgl; exact run_good hgl
  obtain ⟨s, o, s1, a1, a2, a3⟩ := one_shot hh hr h₀ hd cs cs₁ h k .encrypt .aesGcm (.gcm iv aad t) hinit hcs₁ hgn
  obtain ⟨u, o', u1, us, _, b1, b2, b4, b5, _, b6⟩ := dec_history hh hr h₀ hd later dec h' k .aesGcm (.gcm iv aad t) hinit' hdec hgood
  have hkey : o'.data = o.data := hsame _ _ a1 b1
  have hsym : o'.symm = o.symm := by unfold Obj.symm; rw [hkey]
  unfold dataOf initOf at *
  rw [a3] at henc
  injection henc with g1 _ _ _ _ g2
  have g2 := Option.some.inj g2
  have key := (c47_round_trip e.crypto ha s s1 u.op u1 o o' hsym iv msg aad t n n' rnd 0 a2 b2 g1 ht hn hmsg).2.2
  obtain ⟨f1, f2⟩ := c47_decrypt_split e.crypto u.op u1 o' iv aad t us (.buf n') 0 b2
  rw [b4] at hdata
  rw [b5, b6]
  refine ⟨f1, ?_⟩
  show Resp.mk _ _ _ _ _ _ _ _ = _
  simp only [DataCall.run]
  rw [hdata, ← g2] at f2
  rw [f2]
  have key : (decrypt e.crypto u1 (some o') (some (DataCall.run e.crypto s1 (some o) (.encrypt (some msg) (.buf n) rnd)).2.wr) (.buf n') 0).2 =
    { rv := .ok, wr := msg, len := some msg.length } := key
  rw [key]

/-- **C108** for AES-GCM, encrypted in one part and decrypted in parts. -/
theorem c108_gcm_parts_partial (hx : StoreLaws e.store) (ha : e.crypto.gcm.Lawful) (hh : HashLen e) (hr : RandLen e)
    {l₀ : Lib} (h₀ : Start l₀) (hd : NoToken l₀) (cs cs₁ mid dec : List Call) (h h' k n n' rnd t : Nat) (iv msg : Bytes)
    (aad : Option Bytes) (w : Out) (ht : t ≤ 128) (hn : msg.length ≤ n') (hmsg : msg.length < 2 ^ 31)
    (now : List Call) (hnow : now = cs ++ initOf h .encrypt .aesGcm (.gcm iv aad t) k :: cs₁)
    (hinit : (answer e (run e l₀ cs) (initOf h .encrypt .aesGcm (.gcm iv aad t) k)).rv = .ok)
    (hcs₁ : ∀ c ∈ cs₁, Bystander h k c)
    (henc : answer e (run e l₀ now) (dataOf h (.encrypt (some msg) (.buf n) rnd)) = { rv := .ok, out := some w })
    (later : List Call) (hlater : later = now ++ dataOf h (.encrypt (some msg) (.buf n) rnd) :: mid)
    (hmid : Untouched e (run e l₀ cs)
      (initOf h .encrypt .aesGcm (.gcm iv aad t) k :: cs₁ ++ dataOf h (.encrypt (some msg) (.buf n) rnd) :: mid) h h' k)
    (hinit' : (answer e (run e l₀ later) (initOf h' .decrypt .aesGcm (.gcm iv aad t) k)).rv = .ok)
    (hdec : ∀ c ∈ dec, DecryptsOr h' k c)
    (hb : BoolToken later) (hlen : 2 * later.length < 2 ^ 28)
    (hgood : (run e l₀ (later ++ initOf h' .decrypt .aesGcm (.gcm iv aad t) k :: dec)).bad = false)
    (hdata : handedBy (talk e h' (run e l₀ (later ++ [initOf h' .decrypt .aesGcm (.gcm iv aad t) k])) dec) = w.wr) :
    writtenBy (talk e h' (run e l₀ (later ++ [initOf h' .decrypt .aesGcm (.gcm iv aad t) k])) dec) = [] ∧
    answer e (run e l₀ (later ++ initOf h' .decrypt .aesGcm (.gcm iv aad t) k :: dec)) (dataOf h' (.decryptFinal (.buf n'))) =
      { rv := .ok, out := some { rv := .ok, wr := msg, len := some msg.length } } := by
  refine lasting_gcm_parts ha hh hr h₀ hd cs cs₁ mid dec h h' k n n' rnd t iv msg aad w ht hn hmsg now hnow hinit hcs₁ henc later hlater ?_ hinit' hdec hgood hdata
  intro o o' q q'
  have hgl : (run e l₀ later).bad = false := by rw [run_append] at hgood; exact run_good hgood
  subst hnow
  rw [hlater, List.append_assoc] at q' hb hlen hgl
  exact same_key hx hh hr h₀ hd cs _ hb hlen hinit hmid hgl q q'

/-- The proof of C108 and C138 below, from the key being the same. -/
theorem lasting_hmac (ha : e.crypto.mac.Lawful) (hh : HashLen e) (hr : RandLen e)
    {l₀ : Lib} (h₀ : Start l₀) (hd : NoToken l₀) (cs sign mid ver : List Call) (h h' k n : Nat) (a : HmacAlg)
    (p p' : MechParam) (sig : Bytes)
    (now : List Call) (hnow : now = cs ++ initOf h .sign (.hmac a) p k :: sign)
    (hinit : (answer e (run e l₀ cs) (initOf h .sign (.hmac a) p k)).rv = .ok) (hsign : ∀ c ∈ sign, SignsOr h k c)
    (hmac : (answer e (run e l₀ now) (dataOf h (.signFinal (.buf n)))).rv = .ok)
    (later : List Call) (hlater : later = now ++ dataOf h (.signFinal (.buf n)) :: mid)
    (hsame : ∀ o o', Addressed (run e l₀ cs) h k o → Addressed (run e l₀ later) h' k o' → o'.data = o.data)
    (hinit' : (answer e (run e l₀ later) (initOf h' .verify (.hmac a) p' k)).rv = .ok) (hver : ∀ c ∈ ver, VerifiesOr h' k c)
    (hgood : (run e l₀ (later ++ initOf h' .verify (.hmac a) p' k :: ver)).bad = false)
    (hdata : handedBy (talk e h' (run e l₀ (later ++ [initOf h' .verify (.hmac a) p' k])) ver) =
      handedBy (talk e h (run e l₀ (cs ++ [initOf h .sign (.hmac a) p k])) sign)) :
    (answer e (run e l₀ (later ++ initOf h' .verify (.hmac a) p' k :: ver)) (dataOf h' (.verifyFinal (some sig)))).rv =
      if sig = (answer e (run e l₀ now) (dataOf h (.signFinal (.buf n)))).wr then .ok else .signatureInvalid := by
  subst hnow
  have hgl : (run e l₀ later).bad = false := by rw [run_append] at hgood; exact run_good hgood
  have hgn : (run e l₀ (cs ++ initOf h .sign (.hmac a) p k :: sign)).bad = false := by
    rw [hlater, run_append] at hgl; exact run_good hgl
  obtain ⟨o, ho, h1⟩ := c49_sign_history ha hh hr h₀ hd cs sign h k a p n hinit hsign hgn
  obtain ⟨o', ho', h2⟩ := c49_verify_history ha hh hr h₀ hd later ver h' k a p' sig hinit' hver hgood
  have hkey : o'.data = o.data := hsame _ _ ho ho'
  have hsym : o'.symm = o.symm := by unfold Obj.symm; rw [hkey]
  dsimp only at h1 h2
  unfold dataOf initOf at *
  rw [h2, hsym, hdata]
  split at h1
  · rw [h1.2]
  · rw [h1] at hmac; cases hmac

/-- **C108** for HMACs: a MAC computed in parts is accepted later for the same data, in whatever
parts, and no other byte string is. -/
theorem c108_hmac_partial (hx : StoreLaws e.store) (ha : e.crypto.mac.Lawful) (hh : HashLen e) (hr : RandLen e)
    {l₀ : Lib} (h₀ : Start l₀) (hd : NoToken l₀) (cs sign mid ver : List Call) (h h' k n : Nat) (a : HmacAlg)
    (p p' : MechParam) (sig : Bytes)
    (now : List Call) (hnow : now = cs ++ initOf h .sign (.hmac a) p k :: sign)
    (hinit : (answer e (run e l₀ cs) (initOf h .sign (.hmac a) p k)).rv = .ok) (hsign : ∀ c ∈ sign, SignsOr h k c)
    (hmac : (answer e (run e l₀ now) (dataOf h (.signFinal (.buf n)))).rv = .ok)
    (later : List Call) (hlater : later = now ++ dataOf h (.signFinal (.buf n)) :: mid)
    (hmid : Untouched e (run e l₀ cs) (initOf h .sign (.hmac a) p k :: sign ++ dataOf h (.signFinal (.buf n)) :: mid) h h' k)
    (hinit' : (answer e (run e l₀ later) (initOf h' .verify (.hmac a) p' k)).rv = .ok) (hver : ∀ c ∈ ver, VerifiesOr h' k c)
    (hb : BoolToken later) (hlen : 2 * later.length < 2 ^ 28)
    (hgood : (run e l₀ (later ++ initOf h' .verify (.hmac a) p' k :: ver)).bad = false)
    (hdata : handedBy (talk e h' (run e l₀ (later ++ [initOf h' .verify (.hmac a) p' k])) ver) =
      handedBy (talk e h (run e l₀ (cs ++ [initOf h .sign (.hmac a) p k])) sign)) :
    (answer e (run e l₀ (later ++ initOf h' .verify (.hmac a) p' k :: ver)) (dataOf h' (.verifyFinal (some sig)))).rv =
      if sig = (answer e (run e l₀ now) (dataOf h (.signFinal (.buf n)))).wr then .ok else .signatureInvalid := by
  refine lasting_hmac ha hh hr h₀ hd cs sign mid ver h h' k n a p p' sig now hnow hinit hsign hmac later hlater ?_ hinit' hver hgood hdata
  intro o o' q q'
  have hgl : (run e l₀ later).bad = false := by rw [run_append] at hgood; exact run_good hgood
  subst hnow
  rw [hlater, List.append_assoc] at q' hb hlen hgl
  exact same_key hx hh hr h₀ hd cs _ hb hlen hinit hmid hgl q q'

/-- The proof of C108 and C138 below, from the key being the same. -/
theorem lasting_hmac_single (ha : e.crypto.mac.Lawful) (hh : HashLen e) (hr : RandLen e)
    {l₀ : Lib} (h₀ : Start l₀) (hd : NoToken l₀) (cs cs₁ mid cs₂ : List Call) (h h' k n rnd : Nat) (a : HmacAlg)
    (p p' : MechParam) (msg sig : Bytes)
    (now : List Call) (hnow : now = cs ++ initOf h .sign (.hmac a) p k :: cs₁)
    (hinit : (answer e (run e l₀ cs) (initOf h .sign (.hmac a) p k)).rv = .ok) (hcs₁ : ∀ c ∈ cs₁, Bystander h k c)
    (hmac : (answer e (run e l₀ now) (dataOf h (.sign (some msg) (.buf n) rnd))).rv = .ok)
    (later : List Call) (hlater : later = now ++ dataOf h (.sign (some msg) (.buf n) rnd) :: mid)
    (hsame : ∀ o o', Addressed (run e l₀ cs) h k o → Addressed (run e l₀ later) h' k o' → o'.data = o.data)
    (hinit' : (answer e (run e l₀ later) (initOf h' .verify (.hmac a) p' k)).rv = .ok) (hcs₂ : ∀ c ∈ cs₂, Bystander h' k c)
    (hgood : (run e l₀ (later ++ initOf h' .verify (.hmac a) p' k :: cs₂)).bad = false) :
    (answer e (run e l₀ (later ++ initOf h' .verify (.hmac a) p' k :: cs₂)) (dataOf h' (.verify (some msg) (some sig)))).rv =
      if sig = (answer e (run e l₀ now) (dataOf h (.sign (some msg) (.buf n) rnd))).wr then .ok else .signatureInvalid := by
  subst hnow
  have hgl : (run e l₀ later).bad = false := by rw [run_append] at hgood; exact run_good hgood
  have hgn : (run e l₀ (cs ++ initOf h .sign (.hmac a) p k :: cs₁)).bad = false := by
    rw [hlater, run_append] at hgl; exact run_good hgl
  obtain ⟨s, o, s1, _, a1, a2, a3⟩ := one_shot_at hh hr h₀ hd cs cs₁ h k .sign (.hmac a) p hinit hcs₁ hgn
  obtain ⟨u, o', u1, _, b1, b2, b3⟩ := one_shot_at hh hr h₀ hd later cs₂ h' k .verify (.hmac a) p' hinit' hcs₂ hgood
  have hkey : o'.data = o.data := hsame _ _ a1 b1
  have hsym : o'.symm = o.symm := by unfold Obj.symm; rw [hkey]
  obtain ⟨g1, g2⟩ := c49_sign_split e.crypto ha s.op s1 o a p [msg] n rnd a2
  obtain ⟨_, g3⟩ := c49_verify_exact e.crypto ha u.op u1 o' a p' [msg] sig b2
  rw [g1] at g2
  rw [show [msg].flatten = msg from by simp] at g2 g3
  rw [a3] at hmac
  rw [a3, b3]
  have hmac : (sign e.crypto s1 (some o) (some msg) (.buf n) rnd).2.rv = .ok := hmac
  show (verify e.crypto u1 (some o') (some msg) (some sig)).2.rv =
    if sig = (sign e.crypto s1 (some o) (some msg) (.buf n) rnd).2.wr then .ok else .signatureInvalid
  rw [g2] at hmac ⊢
  rw [g3, hsym]
  split at hmac
  · rename_i hle
    rw [if_pos hle]
  · cases hmac

/-- **C108** for HMACs in one part: what `C_Sign` answered is accepted by `C_Verify` later, and
nothing else is. -/
theorem c108_hmac_single_partial (hx : StoreLaws e.store) (ha : e.crypto.mac.Lawful) (hh : HashLen e) (hr : RandLen e)
    {l₀ : Lib} (h₀ : Start l₀) (hd : NoToken l₀) (cs cs₁ mid cs₂ : List Call) (h h' k n rnd : Nat) (a : HmacAlg)
    (p p' : MechParam) (msg sig : Bytes)
    (now : List Call) (hnow : now = cs ++ initOf h .sign (.hmac a) p k :: cs₁)
    (hinit : (answer e (run e l₀ cs) (initOf h .sign (.hmac a) p k)).rv = .ok) (hcs₁ : ∀ c ∈ cs₁, Bystander h k c)
    (hmac : (answer e (run e l₀ now) (dataOf h (.sign (some msg) (.buf n) rnd))).rv = .ok)
    (later : List Call) (hlater : later = now ++ dataOf h (.sign (some msg) (.buf n) rnd) :: mid)
    (hmid : Untouched e (run e l₀ cs)
      (initOf h .sign (.hmac a) p k :: cs₁ ++ dataOf h (.sign (some msg) (.buf n) rnd) :: mid) h h' k)
    (hinit' : (answer e (run e l₀ later) (initOf h' .verify (.hmac a) p' k)).rv = .ok) (hcs₂ : ∀ c ∈ cs₂, Bystander h' k c)
    (hb : BoolToken later) (hlen : 2 * later.length < 2 ^ 28)
    (hgood : (run e l₀ (later ++ initOf h' .verify (.hmac a) p' k :: cs₂)).bad = false) :
    (answer e (run e l₀ (later ++ initOf h' .verify (.hmac a) p' k :: cs₂)) (dataOf h' (.verify (some msg) (some sig)))).rv =
      if sig = (answer e (run e l₀ now) (dataOf h (.sign (some msg) (.buf n) rnd))).wr then .ok else .signatureInvalid := by
  refine lasting_hmac_single ha hh hr h₀ hd cs cs₁ mid cs₂ h h' k n rnd a p p' msg sig now hnow hinit hcs₁ hmac later hlater ?_ hinit' hcs₂ hgood
  intro o o' q q'
  have hgl : (run e l₀ later).bad = false := by rw [run_append] at hgood; exact run_good hgood
  subst hnow
  rw [hlater, List.append_assoc] at q' hb hlen hgl
  exact same_key hx hh hr h₀ hd cs _ hb hlen hinit hmid hgl q q'

/-- The mechanism `m` signs with the keys that `g` generates. -/
def SignsWith (g m : Mech) : Prop :=
  g = .rsaKeyPairGen ∧ (m = .rsaX509 ∨ m = .rsaPkcs ∨ m = .rsaPss) ∨ g = .ecKeyPairGen ∧ m = .ecdsa

/-- What `C_GenerateKeyPair` made, and what the handles name later if both keys are left alone. -/
theorem generated_keys (hx : StoreLaws e.store) (hh : HashLen e) (hr : RandLen e) (hg : GenLawful e) {l₀ : Lib} (h₀ : Start l₀)
    (hd : NoToken l₀) (cs : List Call) {h k₁ k₂ : Nat} {g : Mech} {pg : MechParam} {tp tq : List Entry}
    (hgen : answer e (run e l₀ cs) (pairCall h g pg tp tq) = { rv := .ok, handle := some k₁, priv := some k₂ })
    (hb : BoolToken (cs ++ [pairCall h g pg tp tq])) (hlen : 2 * (cs.length + 1) < 2 ^ 28) :
    ∃ pub priv, Addressed (run e l₀ (cs ++ [pairCall h g pg tp tq])) h k₁ pub ∧
      Addressed (run e l₀ (cs ++ [pairCall h g pg tp tq])) h k₂ priv ∧ BelongTogether e g pub priv ∧
      ∀ (mid : List Call) (h' k : Nat) (a b : Obj), (k = k₁ ∧ a = pub ∨ k = k₂ ∧ a = priv) →
        BoolToken (cs ++ [pairCall h g pg tp tq] ++ mid) → 2 * (cs ++ [pairCall h g pg tp tq] ++ mid).length < 2 ^ 28 →
        Untouched e (run e l₀ (cs ++ [pairCall h g pg tp tq])) mid h h' k →
        (run e l₀ (cs ++ [pairCall h g pg tp tq] ++ mid)).bad = false →
        Addressed (run e l₀ (cs ++ [pairCall h g pg tp tq] ++ mid)) h' k b → b.data = a.data := by
  obtain ⟨j₁, j₂, pub, priv, e1, e2, a1, a2, hbt, _, _, ⟨c1, c2⟩, _⟩ := c79_partial hh hr hg h₀ hd cs h g pg tp tq hb hlen (by rw [hgen])
  rw [hgen] at e1 e2
  cases e1; cases e2
  -- the session is open after the generation
  obtain ⟨hcnt, s, hs⟩ : 0 < (run e l₀ (cs ++ [pairCall h g pg tp tq])).count ∧
      ∃ s, getSession (run e l₀ (cs ++ [pairCall h g pg tp tq])) h = some s := by
    have hrun : run e l₀ (cs ++ [pairCall h g pg tp tq]) = (step e (run e l₀ cs) (pairCall h g pg tp tq)).1 := by
      rw [run_append]; rfl
    obtain ⟨hbad, hpos, s, hs, _⟩ := sess_step (c := .genPair (some (g, pg)) (some tp) (some tq) true)
      (show (answer e (run e l₀ cs) (pairCall h g pg tp tq)).rv = .ok by rw [hgen])
    obtain ⟨hk, hc⟩ := keeps_step (e := e) (q := false) (ov := pub) (c := pairCall h g pg tp tq)
      ((Start.capInv h₀ hd).run hh hr h₀.sinv cs).pop (h₀.sinv.run e cs) hbad hpos trivial (fun h => by cases h) hs
    obtain ⟨s', g1, _⟩ := hk.ses s hs
    rw [hrun]
    exact ⟨hc, s', g1⟩
  refine ⟨pub, priv, a1, a2, hbt, fun mid h' k a b hka hb' hn hm hgood hB => ?_⟩
  rcases hka with ⟨rfl, rfl⟩ | ⟨rfl, rfl⟩
  · exact untouched_data hx hh hr h₀ hd _ mid hb' hn hcnt hs a1 c1 hm hgood hB
  · exact untouched_data hx hh hr h₀ hd _ mid hb' hn hcnt hs a2 c2 hm hgood hB

/-- **C82**: a pair that `C_GenerateKeyPair` made signs and verifies: a signature made later
with the private key's handle verifies under the public key's handle, in whatever sessions and
whatever happens in between as long as it leaves the two keys alone and does not concern the
running operations; keys of the token may be used after logouts, logins, PIN changes and
restarts of the library.
Missing: RSA keys whose exponent is not the same read backwards (`c59_violated`), plain
RSA with data shorter than the key, and what `c107_partial` leaves out. -/
theorem c82_generated_signs_partial (hx : StoreLaws e.store) (hh : HashLen e) (hr : RandLen e) (hl : e.crypto.rsa.Lawful)
    (hg : GenLawful e) {l₀ : Lib} (h₀ : Start l₀) (hd : NoToken l₀) (cs cs₀ cs₁ cs₂ cs₃ : List Call)
    (h h₁ h₂ k₁ k₂ : Nat) (g m : Mech) (pg p : MechParam) (tp tq : List Entry) (d : Bytes) (n rnd : Nat) (w : Out)
    (hm : SignsWith g m)
    -- a pair is generated in session `h`
    (made : List Call) (hmade : made = cs ++ [pairCall h g pg tp tq])
    (hgen : answer e (run e l₀ cs) (pairCall h g pg tp tq) = { rv := .ok, handle := some k₁, priv := some k₂ })
    (hexp : ∀ o, Addressed (run e l₀ made) h k₁ o → g = .rsaKeyPairGen → PlainExponent o.rsa.e)
    (hraw : ∀ o, Addressed (run e l₀ made) h k₂ o → m = .rsaX509 → d.length = o.rsa.keyLen ∧ d.length < 2 ^ 31)
    -- a signature is made in session `h₂`
    (hcs₀ : Untouched e (run e l₀ made) cs₀ h h₂ k₂)
    (h1 : (answer e (run e l₀ (made ++ cs₀)) (initOf h₂ .sign m p k₂)).rv = .ok)
    (hcs₁ : ∀ c ∈ cs₁, Bystander h₂ k₂ c)
    (h2 : answer e (run e l₀ (made ++ cs₀ ++ initOf h₂ .sign m p k₂ :: cs₁)) (dataOf h₂ (.sign (some d) (.buf n) rnd)) =
      { rv := .ok, out := some w })
    -- it is checked in session `h₁`
    (later : List Call) (hlater : later = made ++ cs₀ ++ initOf h₂ .sign m p k₂ :: cs₁ ++ cs₂)
    (hcs₂ : Untouched e (run e l₀ made) (cs₀ ++ initOf h₂ .sign m p k₂ :: cs₁ ++ cs₂) h h₁ k₁)
    (h3 : (answer e (run e l₀ later) (initOf h₁ .verify m p k₁)).rv = .ok)
    (hcs₃ : ∀ c ∈ cs₃, Bystander h₁ k₁ c)
    (hb : BoolToken later) (hn : 2 * later.length < 2 ^ 28)
    (hgood : (run e l₀ (later ++ initOf h₁ .verify m p k₁ :: cs₃)).bad = false) :
    (answer e (run e l₀ (later ++ initOf h₁ .verify m p k₁ :: cs₃)) (dataOf h₁ (.verify (some d) (some w.wr)))).rv = .ok := by
  subst hmade
  have hgl : (run e l₀ later).bad = false := by rw [run_append] at hgood; exact run_good hgood
  have hg2 : (run e l₀ (cs ++ [pairCall h g pg tp tq] ++ cs₀)).bad = false := by
    rw [hlater, List.append_assoc (_ ++ cs₀), run_append] at hgl; exact run_good hgl
  have hb0 : BoolToken (cs ++ [pairCall h g pg tp tq] ++ cs₀) := fun c hc => hb c (by
    rw [hlater, List.append_assoc (_ ++ cs₀)]; exact List.mem_append_left _ hc)
  have hlen : 2 * (cs ++ [pairCall h g pg tp tq] ++ cs₀).length < 2 ^ 28 := by
    rw [hlater, List.append_assoc (_ ++ cs₀), List.length_append] at hn; omega
  obtain ⟨pub, priv, a1, a2, hbt, hkeep⟩ := generated_keys hx hh hr hg h₀ hd cs hgen
    (fun c hc => hb0 c (List.mem_append_left _ hc))
    (by simp only [List.length_append, List.length_cons, List.length_nil] at hlen; omega)
  subst hlater
  refine c77_history_partial hh hr hl h₀ hd _ cs₁ cs₂ cs₃ h₂ k₂ h₁ k₁ m p d n rnd w ?_ h1 hcs₁ h2 h3 hcs₃ hgood
  intro o o' ho ho'
  have d2 : o.data = priv.data := hkeep cs₀ h₂ k₂ priv o (.inr ⟨rfl, rfl⟩) hb0 hlen hcs₀ hg2 ho
  have d1 : o'.data = pub.data := by
    rw [List.append_assoc _ cs₀, List.append_assoc _ (cs₀ ++ _)] at hb hn hgl
    refine hkeep _ h₁ k₁ pub o' (.inl ⟨rfl, rfl⟩) hb hn hcs₂ hgl ?_
    rw [← List.append_assoc _ (cs₀ ++ _), ← List.append_assoc _ cs₀]
    exact ho'
  have r1 : o'.rsa = pub.rsa := by unfold Obj.rsa; rw [d1]
  have r2 : o.rsa = priv.rsa := by unfold Obj.rsa; rw [d2]
  have c1 : o'.ec = pub.ec := by unfold Obj.ec; rw [d1]
  have c2 : o.ec = priv.ec := by unfold Obj.ec; rw [d2]
  refine ⟨?_, fun hm => by rw [r2]; exact hraw priv a2 hm⟩
  rcases hm with ⟨rfl, hm⟩ | ⟨rfl, rfl⟩
  · have := hbt (hexp pub a1 rfl)
    rw [← r1, ← r2] at this
    rcases hm with rfl | rfl | rfl <;> exact this
  · have : ∃ c, EcPair e.crypto.ecdsa priv.ec pub.ec c := hbt
    rw [← c1, ← c2] at this
    exact this

/-- **C82** for encryption: what is encrypted under the public key of a generated RSA pair is
decrypted later with the private key. -/
theorem c82_generated_decrypts_partial (hx : StoreLaws e.store) (hh : HashLen e) (hr : RandLen e)
    (hg : GenLawful e) {l₀ : Lib} (h₀ : Start l₀) (hd : NoToken l₀) (cs cs₀ cs₁ cs₂ cs₃ : List Call)
    (h h₁ h₂ k₁ k₂ : Nat) (m : Mech) (pg p : MechParam) (tp tq : List Entry) (d : Bytes) (n n' rnd rnd' : Nat) (w : Out)
    -- an RSA pair is generated in session `h`
    (made : List Call) (hmade : made = cs ++ [pairCall h .rsaKeyPairGen pg tp tq])
    (hgen : answer e (run e l₀ cs) (pairCall h .rsaKeyPairGen pg tp tq) = { rv := .ok, handle := some k₁, priv := some k₂ })
    (hexp : ∀ o, Addressed (run e l₀ made) h k₁ o → PlainExponent o.rsa.e)
    (hm : ∀ o, Addressed (run e l₀ made) h k₂ o → o.rsa.keyLen ≤ n' ∧
      (m = .rsaX509 ∧ d.length = o.rsa.keyLen ∨ m = .rsaPkcs ∨ m = .rsaOaep))
    -- a message is encrypted in session `h₁`
    (hcs₀ : Untouched e (run e l₀ made) cs₀ h h₁ k₁)
    (h1 : (answer e (run e l₀ (made ++ cs₀)) (initOf h₁ .encrypt m p k₁)).rv = .ok)
    (hcs₁ : ∀ c ∈ cs₁, Bystander h₁ k₁ c)
    (h2 : answer e (run e l₀ (made ++ cs₀ ++ initOf h₁ .encrypt m p k₁ :: cs₁)) (dataOf h₁ (.encrypt (some d) (.buf n) rnd)) =
      { rv := .ok, out := some w })
    -- it is decrypted in session `h₂`
    (later : List Call) (hlater : later = made ++ cs₀ ++ initOf h₁ .encrypt m p k₁ :: cs₁ ++ cs₂)
    (hcs₂ : Untouched e (run e l₀ made) (cs₀ ++ initOf h₁ .encrypt m p k₁ :: cs₁ ++ cs₂) h h₂ k₂)
    (h3 : (answer e (run e l₀ later) (initOf h₂ .decrypt m p k₂)).rv = .ok)
    (hcs₃ : ∀ c ∈ cs₃, Bystander h₂ k₂ c)
    (hb : BoolToken later) (hn : 2 * later.length < 2 ^ 28)
    (hgood : (run e l₀ (later ++ initOf h₂ .decrypt m p k₂ :: cs₃)).bad = false) :
    answer e (run e l₀ (later ++ initOf h₂ .decrypt m p k₂ :: cs₃)) (dataOf h₂ (.decrypt (some w.wr) (.buf n') rnd')) =
      { rv := .ok, out := some { rv := .ok, wr := d, len := some d.length } } := by
  subst hmade
  have hgl : (run e l₀ later).bad = false := by rw [run_append] at hgood; exact run_good hgood
  have hg2 : (run e l₀ (cs ++ [pairCall h .rsaKeyPairGen pg tp tq] ++ cs₀)).bad = false := by
    rw [hlater, List.append_assoc (_ ++ cs₀), run_append] at hgl; exact run_good hgl
  have hb0 : BoolToken (cs ++ [pairCall h .rsaKeyPairGen pg tp tq] ++ cs₀) := fun c hc => hb c (by
    rw [hlater, List.append_assoc (_ ++ cs₀)]; exact List.mem_append_left _ hc)
  have hlen : 2 * (cs ++ [pairCall h .rsaKeyPairGen pg tp tq] ++ cs₀).length < 2 ^ 28 := by
    rw [hlater, List.append_assoc (_ ++ cs₀), List.length_append] at hn; omega
  obtain ⟨pub, priv, a1, a2, hbt, hkeep⟩ := generated_keys hx hh hr hg h₀ hd cs hgen
    (fun c hc => hb0 c (List.mem_append_left _ hc))
    (by simp only [List.length_append, List.length_cons, List.length_nil] at hlen; omega)
  subst hlater
  refine c78_history hh hr h₀ hd _ cs₁ cs₂ cs₃ h₁ k₁ h₂ k₂ m p d n n' rnd rnd' w ?_ h1 hcs₁ h2 h3 hcs₃ hgood
  intro o o' ho ho'
  have d1 : o.data = pub.data := hkeep cs₀ h₁ k₁ pub o (.inl ⟨rfl, rfl⟩) hb0 hlen hcs₀ hg2 ho
  have d2 : o'.data = priv.data := by
    rw [List.append_assoc _ cs₀, List.append_assoc _ (cs₀ ++ _)] at hb hn hgl
    refine hkeep _ h₂ k₂ priv o' (.inr ⟨rfl, rfl⟩) hb hn hcs₂ hgl ?_
    rw [← List.append_assoc _ (cs₀ ++ _), ← List.append_assoc _ cs₀]
    exact ho'
  have r1 : o.rsa = pub.rsa := by unfold Obj.rsa; rw [d1]
  have r2 : o'.rsa = priv.rsa := by unfold Obj.rsa; rw [d2]
  have hpair : RsaPair e.crypto.rsa priv.rsa pub.rsa := hbt (hexp pub a1)
  rw [r1, r2]
  exact ⟨hpair, hm priv a2⟩

/-! ## Concrete cases -/

namespace Demo

/-- The key of the token encrypts a message of 20 bytes in parts. -/
def sealing : List Call :=
  [initOf 65538 .encrypt .aesCbcPad (.raw iv) tok1, dataOf 65538 (.encryptUpdate (some (List.replicate 20 7)) (.buf 32))]

def sealed : Bytes :=
  writtenBy (talk env 65538 (run env fresh (withKey ++ [initOf 65538 .encrypt .aesCbcPad (.raw iv) tok1])) (sealing.drop 1)) ++
    (answer env (run env fresh (withKey ++ sealing)) (dataOf 65538 (.encryptFinal (.buf 16)))).wr

/-- The PIN is changed and the library ended and restarted. -/
def muchLater : List Call := withKey ++ sealing ++ dataOf 65538 (.encryptFinal (.buf 16)) :: longWay

/-- The ciphertext is decrypted in other parts. -/
def unsealing : List Call :=
  [dataOf 65538 (.decryptUpdate (some (sealed.take 5)) (.buf 32)), openCall false,
   dataOf 65538 (.decryptUpdate (some (sealed.drop 5)) (.buf 32))]

set_option maxRecDepth 100000 in
theorem muchLater_untouched : Untouched env (run env fresh withKey)
    (sealing ++ dataOf 65538 (.encryptFinal (.buf 16)) :: longWay) 65538 65538 tok1 := by
  refine .inr ⟨by decide, .inl (by decide), .inl (by decide), ?_⟩
  rw [show sealing ++ dataOf 65538 (.encryptFinal (.buf 16)) :: longWay =
    (sealing ++ [dataOf 65538 (.encryptFinal (.buf 16))]) ++ longWay from rfl, minded_append]
  refine ⟨⟨trivial, trivial, trivial, trivial⟩, longWay_minded_of (by decide) ?_⟩
  have : (run env (run env (run env fresh withKey) (sealing ++ [dataOf 65538 (.encryptFinal (.buf 16))]))
      (longWay.take 5)).token.toRec = (run env (run env fresh withKey) (longWay.take 5)).token.toRec := by decide +kernel
  rw [this]
  exact longWay_fits

set_option maxRecDepth 100000 in
/-- The hypotheses of `c108_cbc_pad_partial` are met: the message is encrypted before a change
of the PIN and a restart, and decrypted after it. -/
example : StoreLaws env.store ∧ env.crypto.aes.Lawful ∧
    (answer env (run env fresh withKey) (initOf 65538 .encrypt .aesCbcPad (.raw iv) tok1)).rv = .ok ∧
    (∀ c ∈ sealing.drop 1, EncryptsOr 65538 tok1 c) ∧ Emptied (run env fresh withKey) 65538 ∧
    (answer env (run env fresh muchLater) (initOf 65538 .decrypt .aesCbcPad (.raw iv) tok1)).rv = .ok ∧
    (∀ c ∈ unsealing, DecryptsOr 65538 tok1 c) ∧ Emptied (run env fresh muchLater) 65538 ∧ BoolToken muchLater ∧
    (run env fresh (muchLater ++ initOf 65538 .decrypt .aesCbcPad (.raw iv) tok1 :: unsealing)).bad = false ∧
    handedBy (talk env 65538 (run env fresh (muchLater ++ [initOf 65538 .decrypt .aesCbcPad (.raw iv) tok1])) unsealing) = sealed ∧
    writtenBy (talk env 65538 (run env fresh (muchLater ++ [initOf 65538 .decrypt .aesCbcPad (.raw iv) tok1])) unsealing) ++
      (answer env (run env fresh (muchLater ++ initOf 65538 .decrypt .aesCbcPad (.raw iv) tok1 :: unsealing))
        (dataOf 65538 (.decryptFinal (.buf 16)))).wr = List.replicate 20 7 := by
  refine ⟨store_laws, aes_lawful, by decide, ?_, ?_, by decide, ?_, ?_, by unfold BoolToken; decide, by decide, by decide +kernel, by decide +kernel⟩
  · intro c hc
    simp only [sealing, List.drop_succ_cons, List.drop_zero, List.mem_cons, List.not_mem_nil, or_false] at hc
    subst hc
    exact .inr ⟨_, _, rfl⟩
  · unfold Emptied OpSt.Emptied NothingBuffered; decide
  · intro c hc
    simp only [unsealing, List.mem_cons, List.not_mem_nil, or_false] at hc
    rcases hc with rfl | rfl | rfl
    · exact .inr ⟨_, _, rfl⟩
    · exact .inl ⟨trivial, nofun⟩
    · exact .inr ⟨_, _, rfl⟩
  · unfold Emptied OpSt.Emptied NothingBuffered; decide

/-- The same with AES-CBC and a message of two blocks. -/
def cbcSealing : List Call :=
  [initOf 65538 .encrypt .aesCbc (.raw iv) tok1, dataOf 65538 (.encryptUpdate (some (List.replicate 20 7)) (.buf 32)),
   dataOf 65538 (.encryptUpdate (some (List.replicate 12 8)) (.buf 32))]

def cbcLater : List Call := withKey ++ cbcSealing ++ dataOf 65538 (.encryptFinal (.buf 16)) :: longWay

def cbcSealed : Bytes :=
  writtenBy (talk env 65538 (run env fresh (withKey ++ [initOf 65538 .encrypt .aesCbc (.raw iv) tok1])) (cbcSealing.drop 1))

def cbcUnsealing : List Call :=
  [dataOf 65538 (.decryptUpdate (some (cbcSealed.take 5)) (.buf 32)), openCall false,
   dataOf 65538 (.decryptUpdate (some (cbcSealed.drop 5)) (.buf 32))]

set_option maxRecDepth 100000 in
theorem cbcLater_untouched : Untouched env (run env fresh withKey)
    (cbcSealing ++ dataOf 65538 (.encryptFinal (.buf 16)) :: longWay) 65538 65538 tok1 := by
  refine .inr ⟨by decide, .inl (by decide), .inl (by decide), ?_⟩
  rw [show cbcSealing ++ dataOf 65538 (.encryptFinal (.buf 16)) :: longWay =
    (cbcSealing ++ [dataOf 65538 (.encryptFinal (.buf 16))]) ++ longWay from rfl, minded_append]
  refine ⟨⟨trivial, trivial, trivial, trivial, trivial⟩, longWay_minded_of (by decide) ?_⟩
  have : (run env (run env (run env fresh withKey) (cbcSealing ++ [dataOf 65538 (.encryptFinal (.buf 16))]))
      (longWay.take 5)).token.toRec = (run env (run env fresh withKey) (longWay.take 5)).token.toRec := by decide +kernel
  rw [this]
  exact longWay_fits

set_option maxRecDepth 100000 in
/-- The hypotheses of `c108_cbc_partial` are met. -/
example : (answer env (run env fresh withKey) (initOf 65538 .encrypt .aesCbc (.raw iv) tok1)).rv = .ok ∧
    (∀ c ∈ cbcSealing.drop 1, EncryptsOr 65538 tok1 c) ∧ Emptied (run env fresh withKey) 65538 ∧
    (answer env (run env fresh (withKey ++ cbcSealing)) (dataOf 65538 (.encryptFinal (.buf 16)))).rv = .ok ∧
    (answer env (run env fresh cbcLater) (initOf 65538 .decrypt .aesCbc (.raw iv) tok1)).rv = .ok ∧
    (∀ c ∈ cbcUnsealing, DecryptsOr 65538 tok1 c) ∧ Emptied (run env fresh cbcLater) 65538 ∧ BoolToken cbcLater ∧
    (run env fresh (cbcLater ++ initOf 65538 .decrypt .aesCbc (.raw iv) tok1 :: cbcUnsealing)).bad = false ∧
    handedBy (talk env 65538 (run env fresh (cbcLater ++ [initOf 65538 .decrypt .aesCbc (.raw iv) tok1])) cbcUnsealing) =
      cbcSealed ∧ cbcSealed.length = 32 := by
  refine ⟨by decide, ?_, ?_, by decide, by decide, ?_, ?_, by unfold BoolToken; decide, by decide, by decide +kernel, by decide +kernel⟩
  · intro c hc
    simp only [cbcSealing, List.drop_succ_cons, List.drop_zero, List.mem_cons, List.not_mem_nil, or_false] at hc
    rcases hc with rfl | rfl <;> exact .inr ⟨_, _, rfl⟩
  · unfold Emptied OpSt.Emptied NothingBuffered; decide
  · intro c hc
    simp only [cbcUnsealing, List.mem_cons, List.not_mem_nil, or_false] at hc
    rcases hc with rfl | rfl | rfl
    · exact .inr ⟨_, _, rfl⟩
    · exact .inl ⟨trivial, nofun⟩
    · exact .inr ⟨_, _, rfl⟩
  · unfold Emptied OpSt.Emptied NothingBuffered; decide

/-- The same with AES-GCM. -/
def gcmInit (kd : Kind) : Call := initOf 65538 kd .aesGcm (.gcm [1, 2] none 32) tok1

def gcmLater : List Call := withKey ++ [gcmInit .encrypt] ++ dataOf 65538 (.encrypt (some [1, 2, 3]) (.buf 7) 0) :: longWay

def gcmOut : Out :=
  ((answer env (run env fresh (withKey ++ [gcmInit .encrypt])) (dataOf 65538 (.encrypt (some [1, 2, 3]) (.buf 7) 0))).out).getD { rv := .ok }

set_option maxRecDepth 100000 in
theorem gcmLater_untouched : Untouched env (run env fresh withKey)
    ([gcmInit .encrypt] ++ dataOf 65538 (.encrypt (some [1, 2, 3]) (.buf 7) 0) :: longWay) 65538 65538 tok1 := by
  refine .inr ⟨by decide, .inl (by decide), .inl (by decide), ?_⟩
  rw [show [gcmInit .encrypt] ++ dataOf 65538 (.encrypt (some [1, 2, 3]) (.buf 7) 0) :: longWay =
    [gcmInit .encrypt, dataOf 65538 (.encrypt (some [1, 2, 3]) (.buf 7) 0)] ++ longWay from rfl, minded_append]
  refine ⟨⟨trivial, trivial, trivial⟩, longWay_minded_of (by decide) ?_⟩
  have : (run env (run env (run env fresh withKey) [gcmInit .encrypt, dataOf 65538 (.encrypt (some [1, 2, 3]) (.buf 7) 0)])
      (longWay.take 5)).token.toRec = (run env (run env fresh withKey) (longWay.take 5)).token.toRec := by decide +kernel
  rw [this]
  exact longWay_fits

set_option maxRecDepth 100000 in
/-- The hypotheses of `c108_gcm_partial` are met. -/
example : StoreLaws env.store ∧ env.crypto.gcm.Lawful ∧
    (answer env (run env fresh withKey) (gcmInit .encrypt)).rv = .ok ∧
    answer env (run env fresh (withKey ++ [gcmInit .encrypt])) (dataOf 65538 (.encrypt (some [1, 2, 3]) (.buf 7) 0)) =
      { rv := .ok, out := some gcmOut } ∧ gcmOut.wr.length = 7 ∧
    (answer env (run env fresh gcmLater) (gcmInit .decrypt)).rv = .ok ∧ BoolToken gcmLater ∧
    (run env fresh (gcmLater ++ [gcmInit .decrypt])).bad = false :=
  ⟨store_laws, gcm_lawful, by decide, by decide, by decide, by decide, by unfold BoolToken; decide, by decide⟩

/-- The ciphertext in two parts. -/
def gcmParts : List Call :=
  [dataOf 65538 (.decryptUpdate (some (gcmOut.wr.take 2)) (.buf 0)), openCall false,
   dataOf 65538 (.decryptUpdate (some (gcmOut.wr.drop 2)) (.buf 0))]

set_option maxRecDepth 100000 in
/-- The hypotheses of `c108_gcm_parts_partial` beyond those of `c108_gcm_partial` are met. -/
example : (∀ c ∈ gcmParts, DecryptsOr 65538 tok1 c) ∧
    (run env fresh (gcmLater ++ gcmInit .decrypt :: gcmParts)).bad = false ∧
    handedBy (talk env 65538 (run env fresh (gcmLater ++ [gcmInit .decrypt])) gcmParts) = gcmOut.wr ∧
    (answer env (run env fresh (gcmLater ++ gcmInit .decrypt :: gcmParts)) (dataOf 65538 (.decryptFinal (.buf 3)))).wr = [1, 2, 3] := by
  refine ⟨?_, by decide, by decide +kernel, by decide +kernel⟩
  intro c hc
  simp only [gcmParts, List.mem_cons, List.not_mem_nil, or_false] at hc
  rcases hc with rfl | rfl | rfl
  · exact .inr ⟨_, _, rfl⟩
  · exact .inl ⟨trivial, nofun⟩
  · exact .inr ⟨_, _, rfl⟩

/-- AES-CBC in one part, two blocks. -/
def cbcInit (kd : Kind) : Call := initOf 65538 kd .aesCbc (.raw iv) tok1

def cbcOne : Call := dataOf 65538 (.encrypt (some (List.replicate 32 7)) (.buf 32) 0)

def cbcOneLater : List Call := withKey ++ [cbcInit .encrypt] ++ cbcOne :: longWay

set_option maxRecDepth 100000 in
theorem cbcOneLater_untouched : Untouched env (run env fresh withKey) ([cbcInit .encrypt] ++ cbcOne :: longWay) 65538 65538 tok1 := by
  refine .inr ⟨by decide, .inl (by decide), .inl (by decide), ?_⟩
  rw [show [cbcInit .encrypt] ++ cbcOne :: longWay = [cbcInit .encrypt, cbcOne] ++ longWay from rfl, minded_append]
  refine ⟨⟨trivial, trivial, trivial⟩, longWay_minded_of (by decide) ?_⟩
  have : (run env (run env (run env fresh withKey) [cbcInit .encrypt, cbcOne])
      (longWay.take 5)).token.toRec = (run env (run env fresh withKey) (longWay.take 5)).token.toRec := by decide +kernel
  rw [this]
  exact longWay_fits

set_option maxRecDepth 100000 in
/-- The hypotheses of `c108_cbc_single_partial` are met. -/
example : (answer env (run env fresh withKey) (cbcInit .encrypt)).rv = .ok ∧
    (answer env (run env fresh (withKey ++ [cbcInit .encrypt])) cbcOne).wr.length = 32 ∧
    (answer env (run env fresh cbcOneLater) (cbcInit .decrypt)).rv = .ok ∧
    BoolToken cbcOneLater ∧ (run env fresh (cbcOneLater ++ [cbcInit .decrypt])).bad = false :=
  ⟨by decide, by decide +kernel, by decide, by unfold BoolToken; decide, by decide⟩

/-- The same with AES-CBC-PAD in one part. -/
def padInit (kd : Kind) : Call := initOf 65538 kd .aesCbcPad (.raw iv) tok1

def padCall : Call := dataOf 65538 (.encrypt (some (List.replicate 20 7)) (.buf 32) 0)

def padLater : List Call := withKey ++ [padInit .encrypt] ++ padCall :: longWay

set_option maxRecDepth 100000 in
theorem padLater_untouched : Untouched env (run env fresh withKey) ([padInit .encrypt] ++ padCall :: longWay) 65538 65538 tok1 := by
  refine .inr ⟨by decide, .inl (by decide), .inl (by decide), ?_⟩
  rw [show [padInit .encrypt] ++ padCall :: longWay = [padInit .encrypt, padCall] ++ longWay from rfl, minded_append]
  refine ⟨⟨trivial, trivial, trivial⟩, longWay_minded_of (by decide) ?_⟩
  have : (run env (run env (run env fresh withKey) [padInit .encrypt, padCall])
      (longWay.take 5)).token.toRec = (run env (run env fresh withKey) (longWay.take 5)).token.toRec := by decide +kernel
  rw [this]
  exact longWay_fits

set_option maxRecDepth 100000 in
/-- The hypotheses of `c108_cbc_pad_single_partial` are met, and the ciphertext has 32 bytes. -/
example : (answer env (run env fresh withKey) (padInit .encrypt)).rv = .ok ∧ Emptied (run env fresh withKey) 65538 ∧
    (answer env (run env fresh (withKey ++ [padInit .encrypt])) padCall).wr.length = 32 ∧
    (answer env (run env fresh padLater) (padInit .decrypt)).rv = .ok ∧ Emptied (run env fresh padLater) 65538 ∧
    BoolToken padLater ∧ (run env fresh (padLater ++ [padInit .decrypt])).bad = false :=
  ⟨by decide, by unfold Emptied OpSt.Emptied NothingBuffered; decide, by decide +kernel, by decide,
    by unfold Emptied OpSt.Emptied NothingBuffered; decide, by unfold BoolToken; decide, by decide⟩

/-- A secret key in the session for HMACs. -/
def macKey : List Call := setup ++ [createCall 65538 [.of .cls (ulong CKO_SECRET_KEY),
  .of .keyType (ulong CKK_GENERIC_SECRET), .of .value (List.replicate 32 5)]]
def macSign : List Call := [dataOf 65538 (.signUpdate (some [1, 2])), openCall true, dataOf 65538 (.signUpdate (some [3]))]
def macLater : List Call := macKey ++ initOf 65538 .sign (.hmac .sha256) (.null 0) 1 :: macSign ++
  dataOf 65538 (.signFinal (.buf 32)) :: [.sess 65538 (.findInit (some [])), .sess 65538 .logout]
def macVer : List Call := [dataOf 65538 (.verifyUpdate (some [1, 2, 3]))]

set_option maxRecDepth 40000 in
/-- The hypotheses of `c108_hmac_partial` are met. -/
example : (answer env (run env fresh macKey) (initOf 65538 .sign (.hmac .sha256) (.null 0) 1)).rv = .ok ∧
    (∀ c ∈ macSign, SignsOr 65538 1 c) ∧
    (answer env (run env fresh (macKey ++ initOf 65538 .sign (.hmac .sha256) (.null 0) 1 :: macSign)) (dataOf 65538 (.signFinal (.buf 32)))).rv = .ok ∧
    Untouched env (run env fresh macKey) (initOf 65538 .sign (.hmac .sha256) (.null 0) 1 :: macSign ++
      dataOf 65538 (.signFinal (.buf 32)) :: [.sess 65538 (.findInit (some [])), .sess 65538 .logout]) 65538 65538 1 ∧
    (answer env (run env fresh macLater) (initOf 65538 .verify (.hmac .sha256) (.null 0) 1)).rv = .ok ∧
    (∀ c ∈ macVer, VerifiesOr 65538 1 c) ∧ BoolToken macLater ∧
    (run env fresh (macLater ++ initOf 65538 .verify (.hmac .sha256) (.null 0) 1 :: macVer)).bad = false ∧
    handedBy (talk env 65538 (run env fresh (macLater ++ [initOf 65538 .verify (.hmac .sha256) (.null 0) 1])) macVer) =
      handedBy (talk env 65538 (run env fresh (macKey ++ [initOf 65538 .sign (.hmac .sha256) (.null 0) 1])) macSign) := by
  refine ⟨by decide, ?_, by decide, .inl ⟨rfl, ?_⟩, by decide, ?_, by unfold BoolToken; decide, by decide, by decide⟩
  · intro c hc
    simp only [macSign, List.mem_cons, List.not_mem_nil, or_false] at hc
    rcases hc with rfl | rfl | rfl
    · exact .inr ⟨_, rfl⟩
    · exact .inl ⟨trivial, nofun⟩
    · exact .inr ⟨_, rfl⟩
  · intro c hc
    simp only [macSign, List.cons_append, List.nil_append, List.mem_cons, List.not_mem_nil, or_false] at hc
    rcases hc with rfl | rfl | rfl | rfl | rfl | rfl | rfl <;> first | trivial | (show _; decide)
  · intro c hc
    simp only [macVer, List.mem_cons, List.not_mem_nil, or_false] at hc
    subst hc
    exact .inr ⟨_, rfl⟩

def macOnce : Call := dataOf 65538 (.sign (some [1, 2, 3]) (.buf 32) 0)
def macOnceLater : List Call := macKey ++ initOf 65538 .sign (.hmac .sha256) (.null 0) 1 :: [openCall true] ++
  macOnce :: [.sess 65538 (.findInit (some [])), .sess 65538 .logout]

set_option maxRecDepth 40000 in
/-- The hypotheses of `c108_hmac_single_partial` are met. -/
example : (answer env (run env fresh macKey) (initOf 65538 .sign (.hmac .sha256) (.null 0) 1)).rv = .ok ∧
    (∀ c ∈ [openCall true], Bystander 65538 1 c) ∧
    (answer env (run env fresh (macKey ++ initOf 65538 .sign (.hmac .sha256) (.null 0) 1 :: [openCall true])) macOnce).rv = .ok ∧
    Untouched env (run env fresh macKey) (initOf 65538 .sign (.hmac .sha256) (.null 0) 1 :: [openCall true] ++
      macOnce :: [.sess 65538 (.findInit (some [])), .sess 65538 .logout]) 65538 65538 1 ∧
    (answer env (run env fresh macOnceLater) (initOf 65538 .verify (.hmac .sha256) (.null 0) 1)).rv = .ok ∧
    BoolToken macOnceLater ∧
    (run env fresh (macOnceLater ++ [initOf 65538 .verify (.hmac .sha256) (.null 0) 1])).bad = false := by
  refine ⟨by decide, ?_, by decide, .inl ⟨rfl, ?_⟩, by decide, by unfold BoolToken; decide, by decide⟩
  · intro c hc
    simp only [List.mem_cons, List.not_mem_nil, or_false] at hc
    subst hc
    exact ⟨trivial, nofun⟩
  · intro c hc
    simp only [List.cons_append, List.nil_append, List.mem_cons, List.not_mem_nil, or_false] at hc
    rcases hc with rfl | rfl | rfl | rfl | rfl <;> first | trivial | (show _; decide)

/-- An environment that can encode the RSA keys that `pairEnv` generates. -/
def keepEnv : Env := { pairEnv with
  store := { store with
    rsaToDer := fun k => if k = { n := 3233, e := 65537, d := 17 } then some [1] else none
    rsaOfDer := fun d => if d = [1] then some { n := 3233, e := 65537, d := 17 } else none
    rsaToPubDer := fun k => if k = { n := 3233, e := 65537 } then some [2] else none
    rsaOfPubDer := fun d => if d = [2] then some { n := 3233, e := 65537 } else none } }

theorem keepEnv_laws : StoreLaws keepEnv.store where
  cipher := store_laws.cipher
  tag := store_laws.tag
  rsa k d h := by
    simp only [keepEnv] at h ⊢
    split at h
    · rename_i hk; cases h; simp [hk]
    · cases h
  rsaPub k d h := by
    simp only [keepEnv] at h ⊢
    split at h
    · rename_i hk; cases h; simp [hk]
    · cases h
  ec := store_laws.ec
  ecPub := store_laws.ecPub
  dh := store_laws.dh

theorem keepEnv_gen : GenLawful keepEnv where
  rsa := pair_gen.rsa
  ec := pair_gen.ec
  dh := pair_gen.dh

theorem keepEnv_onePin {l : Lib} {p : Bytes} (h : l.token.user.pin = env.store.hash p l.token.user.seed) (hp : p.length ≤ 30) :
    OnePin keepEnv l := onePin_of (l := l) h hp

/-- The objects of the token are that pair. -/
def pairOnly (l : Lib) : Bool := (tokenObjs l).all fun o => o.typ == CKK_RSA &&
  (o.cls == CKO_PRIVATE_KEY && decide (o.data = .rsa { n := 3233, e := 65537, d := 17 }) ||
   o.cls == CKO_PUBLIC_KEY && decide (o.data = .rsa { n := 3233, e := 65537 }))

theorem pairOnly_encodable {l : Lib} (h : pairOnly l = true) : AllEncodable keepEnv l := by
  intro o ho
  have := List.all_eq_true.mp h o ho
  simp only [Bool.and_eq_true, Bool.or_eq_true, beq_iff_eq, decide_eq_true_eq] at this
  obtain ⟨h1, ⟨h2, h3⟩ | ⟨h2, h3⟩⟩ := this
  · refine .inr ⟨⟨by rw [h2]; decide, .inl ⟨h1, .inl h2, _, h3, fun h => ?_⟩⟩, ?_⟩
    · rw [h2] at h; exact absurd h (by decide)
    · rw [Obj.keyBytes, h3]; simp [h2, keepEnv]
  · refine .inr ⟨⟨by rw [h2]; decide, .inl ⟨h1, .inr h2, _, h3, fun _ => rfl⟩⟩, ?_⟩
    rw [Obj.keyBytes, h3]; simp [h2, keepEnv, CKO_PUBLIC_KEY, CKO_PRIVATE_KEY]

/-- Make a pair on the token. -/
def keptGen : Call := Verif.pairCall 65538 .rsaKeyPairGen (.null 0)
  (.of .token [1] :: .of .verify [1] :: .of .encrypt [1] :: rsaPub) [.of .token [1], .of .sign [1], .of .decrypt [1]]

def keptMade : List Call := setup ++ [keptGen]
def again (j : Nat) : List Call := [.sess 65538 .logout, loginCall j .user userPin 0]
def keptSign : List Call := [initOf 65538 .sign .rsaPkcs (.null 0) (tok1 + 1)]
def keptRest : List Call := dataOf 65538 (.sign (some [1, 2]) (.buf 2) 0) :: openCall true :: again 65537

theorem minds_logout {l : Lib} {h k : Nat} (hp : pairOnly l = true) : Minds keepEnv k l (.sess h .logout) :=
  fun _ => pairOnly_encodable hp

theorem minds_login {l : Lib} {h k : Nat} (hp : l.token.user.pin = env.store.hash userPin l.token.user.seed) :
    Minds keepEnv k l (loginCall h .user userPin 0) := fun _ => keepEnv_onePin hp (by decide)

set_option maxRecDepth 100000 in
theorem kept_first : Untouched keepEnv (run keepEnv fresh keptMade) (again 65538) 65538 65538 (tok1 + 1) := by
  refine .inr ⟨by decide, .inl (by decide +kernel), ?_, ?_⟩
  · rw [← run_append]; exact .inl (by decide +kernel)
  · exact minded_run (minds_logout (by decide +kernel)) (minded_run (minds_login (by decide +kernel)) trivial)

set_option maxRecDepth 100000 in
theorem kept_second : Untouched keepEnv (run keepEnv fresh keptMade) (again 65538 ++ keptSign ++ keptRest) 65538 65537 tok1 := by
  refine .inr ⟨by decide, .inl (by decide +kernel), ?_, ?_⟩
  · rw [← run_append]; exact .inl (by decide +kernel)
  · exact minded_run (minds_logout (by decide +kernel)) (minded_run (minds_login (by decide +kernel))
      (minded_run trivial (minded_run trivial (minded_run trivial (minded_run (minds_logout (by decide +kernel))
        (minded_run (minds_login (by decide +kernel)) trivial))))))

set_option maxRecDepth 100000 in
/-- The hypotheses of `c82_generated_signs_partial` are met: a pair on the token; the user logs
out and in, signs, logs out, and logs in again in another session. -/
example : GenLawful keepEnv ∧ keepEnv.crypto.rsa.Lawful ∧ StoreLaws keepEnv.store ∧ SignsWith .rsaKeyPairGen .rsaPkcs ∧
    answer keepEnv (run keepEnv fresh setup) keptGen = { rv := .ok, handle := some tok1, priv := some (tok1 + 1) } ∧
    Untouched keepEnv (run keepEnv fresh keptMade) (again 65538) 65538 65538 (tok1 + 1) ∧
    (answer keepEnv (run keepEnv fresh (keptMade ++ again 65538)) (initOf 65538 .sign .rsaPkcs (.null 0) (tok1 + 1))).rv = .ok ∧
    answer keepEnv (run keepEnv fresh (keptMade ++ again 65538 ++ keptSign))
      (dataOf 65538 (.sign (some [1, 2]) (.buf 2) 0)) = { rv := .ok, out := some { rv := .ok, wr := [1, 2], len := some 2 } } ∧
    Untouched keepEnv (run keepEnv fresh keptMade) (again 65538 ++ keptSign ++ keptRest) 65538 65537 tok1 ∧
    BoolToken (keptMade ++ again 65538 ++ keptSign ++ keptRest) ∧
    (answer keepEnv (run keepEnv fresh (keptMade ++ again 65538 ++ keptSign ++ keptRest)) (initOf 65537 .verify .rsaPkcs (.null 0) tok1)).rv = .ok ∧
    (run keepEnv fresh (keptMade ++ again 65538 ++ keptSign ++ keptRest ++ [initOf 65537 .verify .rsaPkcs (.null 0) tok1])).bad = false := by
  exact ⟨keepEnv_gen, blockRsa_lawful, keepEnv_laws, .inl ⟨rfl, .inr (.inl rfl)⟩, by decide +kernel, kept_first, by decide +kernel,
    by decide +kernel, kept_second, by unfold BoolToken; decide, by decide +kernel, by decide +kernel⟩

set_option maxRecDepth 100000 in
/-- The hypotheses of `c82_generated_decrypts_partial` are met (the exponent is 65537). -/
example : answer keepEnv (run keepEnv fresh setup) keptGen = { rv := .ok, handle := some tok1, priv := some (tok1 + 1) } ∧
    PlainExponent 65537 ∧
    (answer keepEnv (run keepEnv fresh keptMade) (initOf 65538 .encrypt .rsaPkcs (.null 0) tok1)).rv = .ok ∧
    answer keepEnv (run keepEnv fresh (keptMade ++ [initOf 65538 .encrypt .rsaPkcs (.null 0) tok1]))
      (dataOf 65538 (.encrypt (some [1, 2]) (.buf 2) 0)) = { rv := .ok, out := some { rv := .ok, wr := [1, 2], len := some 2 } } ∧
    Untouched keepEnv (run keepEnv fresh keptMade) (initOf 65538 .encrypt .rsaPkcs (.null 0) tok1 ::
      dataOf 65538 (.encrypt (some [1, 2]) (.buf 2) 0) :: again 65538) 65538 65538 (tok1 + 1) ∧
    (answer keepEnv (run keepEnv fresh (keptMade ++ initOf 65538 .encrypt .rsaPkcs (.null 0) tok1 ::
      dataOf 65538 (.encrypt (some [1, 2]) (.buf 2) 0) :: again 65538)) (initOf 65538 .decrypt .rsaPkcs (.null 0) (tok1 + 1))).rv = .ok := by
  refine ⟨by decide +kernel, by unfold PlainExponent; decide, by decide +kernel, by decide +kernel, ?_, by decide +kernel⟩
  refine .inr ⟨by decide, .inl (by decide +kernel), ?_, ?_⟩
  · rw [← run_append]; exact .inl (by decide +kernel)
  · exact minded_run trivial (minded_run trivial (minded_run (minds_logout (by decide +kernel))
      (minded_run (minds_login (by decide +kernel)) trivial)))

end Demo

end Verif
