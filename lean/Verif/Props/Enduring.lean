import Verif.Props.Lasting
import Verif.Props.Orderly
import Verif.Props.Wrap

/-!
# C138: what was protected with a key of the token can be used by any orderly application
-/

namespace Verif

variable {e : Env}

/-- The key of an operation is the key of a later one with the same handle, if the application
obeys the rules of C125 and does not destroy it. -/
theorem ordered_key (hx : StoreLaws e.store) (hse : SealLen e) (hh : HashLen e) (hr : RandLen e) {l₀ : Lib} (h₀ : Start l₀) (hd : NoToken l₀)
    (cs mid later : List Call) {h h' k : Nat} (hl : later = cs ++ mid) (hb : BoolToken later) (hn : 2 * later.length < 2 ^ 28)
    (hk : handleOnToken k = true) (hs : NotDestroyed k mid) (ho : Ordered e l₀ later) (hclock : ClockWithin (2 ^ 62) (later.map .call))
    (hu : UserIn e (run e l₀ cs) h) (hu' : UserIn e (run e l₀ later) h') (hgood : (run e l₀ later).bad = false) {o o' : Obj}
    (q : Addressed (run e l₀ cs) h k o) (q' : Addressed (run e l₀ later) h' k o') : o'.data = o.data := by
  subst hl
  exact (c125_kept hx hse hh hr h₀ hd cs mid h h' k o hb hn hclock ho hu q hk hs hgood hu').2.1 o' q'

/-- **C138** for AES-CBC-PAD in parts. -/
theorem c138_cbc_pad (hx : StoreLaws e.store) (hse : SealLen e) (ha : e.crypto.aes.Lawful) (hh : HashLen e) (hr : RandLen e)
    {l₀ : Lib} (h₀ : Start l₀) (hd : NoToken l₀) (cs enc mid dec : List Call) (h h' k n n' : Nat) (iv : Bytes)
    (hn : 16 ≤ n)
    -- the encryption: `now` is the history up to its last call
    (now : List Call) (hnow : now = cs ++ initOf h .encrypt .aesCbcPad (.raw iv) k :: enc)
    (hinit : (answer e (run e l₀ cs) (initOf h .encrypt .aesCbcPad (.raw iv) k)).rv = .ok)
    (henc : ∀ c ∈ enc, EncryptsOr h k c) (hf : Emptied (run e l₀ cs) h)
    -- the decryption: `later` is the history before it
    (later : List Call) (hlater : later = now ++ dataOf h (.encryptFinal (.buf n)) :: mid)
    (hk : handleOnToken k = true) (hs : NotDestroyed k (initOf h .encrypt .aesCbcPad (.raw iv) k :: enc ++ dataOf h (.encryptFinal (.buf n)) :: mid))
    (ho : Ordered e l₀ later) (hclock : ClockWithin (2 ^ 62) (later.map .call)) (hu : UserIn e (run e l₀ cs) h) (hu' : UserIn e (run e l₀ later) h')
    (hinit' : (answer e (run e l₀ later) (initOf h' .decrypt .aesCbcPad (.raw iv) k)).rv = .ok)
    (hdec : ∀ c ∈ dec, DecryptsOr h' k c) (hf' : Emptied (run e l₀ later) h')
    (hb : BoolToken later) (hlen : 2 * later.length < 2 ^ 28)
    (hgood : (run e l₀ (later ++ initOf h' .decrypt .aesCbcPad (.raw iv) k :: dec)).bad = false)
    -- what is handed over to the decryption is what the encryption wrote
    (hdata : handedBy (talk e h' (run e l₀ (later ++ [initOf h' .decrypt .aesCbcPad (.raw iv) k])) dec) =
      writtenBy (talk e h (run e l₀ (cs ++ [initOf h .encrypt .aesCbcPad (.raw iv) k])) enc) ++
        (answer e (run e l₀ now) (dataOf h (.encryptFinal (.buf n)))).wr) :
    (answer e (run e l₀ (later ++ initOf h' .decrypt .aesCbcPad (.raw iv) k :: dec)) (dataOf h' (.decryptFinal (.buf n')))).rv = .ok ∧
    writtenBy (talk e h' (run e l₀ (later ++ [initOf h' .decrypt .aesCbcPad (.raw iv) k])) dec) ++
      (answer e (run e l₀ (later ++ initOf h' .decrypt .aesCbcPad (.raw iv) k :: dec)) (dataOf h' (.decryptFinal (.buf n')))).wr =
    handedBy (talk e h (run e l₀ (cs ++ [initOf h .encrypt .aesCbcPad (.raw iv) k])) enc) := by
  have hgl : (run e l₀ later).bad = false := by rw [run_append] at hgood; exact run_good hgood
  refine lasting_cbc_pad ha hh hr h₀ hd cs enc mid dec h h' k n n' iv hn now hnow hinit henc hf later hlater ?_ hinit' hdec hf' hgood hdata
  intro o o' q q'
  exact ordered_key hx hse hh hr h₀ hd cs _ later (by rw [hlater, hnow, List.append_assoc]) hb hlen hk hs ho hclock hu hu' hgl q q'

/-- **C138** for AES-CBC-PAD in one part. -/
theorem c138_cbc_pad_single (hx : StoreLaws e.store) (hse : SealLen e) (ha : e.crypto.aes.Lawful) (hh : HashLen e) (hr : RandLen e)
    {l₀ : Lib} (h₀ : Start l₀) (hd : NoToken l₀) (cs cs₁ mid cs₂ : List Call) (h h' k n n' rnd rnd' : Nat) (iv msg : Bytes)
    (hn : msg.length ≤ n)
    (now : List Call) (hnow : now = cs ++ initOf h .encrypt .aesCbcPad (.raw iv) k :: cs₁)
    (hinit : (answer e (run e l₀ cs) (initOf h .encrypt .aesCbcPad (.raw iv) k)).rv = .ok)
    (hcs₁ : ∀ c ∈ cs₁, Bystander h k c) (hf : Emptied (run e l₀ cs) h)
    (later : List Call) (hlater : later = now ++ dataOf h (.encrypt (some msg) (.buf n) rnd) :: mid)
    (hk : handleOnToken k = true) (hs : NotDestroyed k (initOf h .encrypt .aesCbcPad (.raw iv) k :: cs₁ ++ dataOf h (.encrypt (some msg) (.buf n) rnd) :: mid))
    (ho : Ordered e l₀ later) (hclock : ClockWithin (2 ^ 62) (later.map .call)) (hu : UserIn e (run e l₀ cs) h) (hu' : UserIn e (run e l₀ later) h')
    (hinit' : (answer e (run e l₀ later) (initOf h' .decrypt .aesCbcPad (.raw iv) k)).rv = .ok)
    (hcs₂ : ∀ c ∈ cs₂, Bystander h' k c) (hf' : Emptied (run e l₀ later) h')
    (hb : BoolToken later) (hlen : 2 * later.length < 2 ^ 28)
    (hgood : (run e l₀ (later ++ initOf h' .decrypt .aesCbcPad (.raw iv) k :: cs₂)).bad = false) :
    (answer e (run e l₀ now) (dataOf h (.encrypt (some msg) (.buf n) rnd))).rv = .ok ∧
    (answer e (run e l₀ (later ++ initOf h' .decrypt .aesCbcPad (.raw iv) k :: cs₂))
      (dataOf h' (.decrypt (some (answer e (run e l₀ now) (dataOf h (.encrypt (some msg) (.buf n) rnd))).wr) (.buf n') rnd'))).rv = .ok ∧
    (answer e (run e l₀ (later ++ initOf h' .decrypt .aesCbcPad (.raw iv) k :: cs₂))
      (dataOf h' (.decrypt (some (answer e (run e l₀ now) (dataOf h (.encrypt (some msg) (.buf n) rnd))).wr) (.buf n') rnd'))).wr = msg := by
  have hgl : (run e l₀ later).bad = false := by rw [run_append] at hgood; exact run_good hgood
  refine lasting_cbc_pad_single ha hh hr h₀ hd cs cs₁ mid cs₂ h h' k n n' rnd rnd' iv msg hn now hnow hinit hcs₁ hf later hlater ?_ hinit' hcs₂ hf' hgood
  intro o o' q q'
  exact ordered_key hx hse hh hr h₀ hd cs _ later (by rw [hlater, hnow, List.append_assoc]) hb hlen hk hs ho hclock hu hu' hgl q q'

/-- **C138** for AES-CBC in parts. -/
theorem c138_cbc (hx : StoreLaws e.store) (hse : SealLen e) (ha : e.crypto.aes.Lawful) (hh : HashLen e) (hr : RandLen e)
    {l₀ : Lib} (h₀ : Start l₀) (hd : NoToken l₀) (cs enc mid dec : List Call) (h h' k n n' : Nat) (iv : Bytes)
    (now : List Call) (hnow : now = cs ++ initOf h .encrypt .aesCbc (.raw iv) k :: enc)
    (hinit : (answer e (run e l₀ cs) (initOf h .encrypt .aesCbc (.raw iv) k)).rv = .ok)
    (henc : ∀ c ∈ enc, EncryptsOr h k c) (hf : Emptied (run e l₀ cs) h)
    (hend : (answer e (run e l₀ now) (dataOf h (.encryptFinal (.buf n)))).rv = .ok)
    (later : List Call) (hlater : later = now ++ dataOf h (.encryptFinal (.buf n)) :: mid)
    (hk : handleOnToken k = true) (hs : NotDestroyed k (initOf h .encrypt .aesCbc (.raw iv) k :: enc ++ dataOf h (.encryptFinal (.buf n)) :: mid))
    (ho : Ordered e l₀ later) (hclock : ClockWithin (2 ^ 62) (later.map .call)) (hu : UserIn e (run e l₀ cs) h) (hu' : UserIn e (run e l₀ later) h')
    (hinit' : (answer e (run e l₀ later) (initOf h' .decrypt .aesCbc (.raw iv) k)).rv = .ok)
    (hdec : ∀ c ∈ dec, DecryptsOr h' k c) (hf' : Emptied (run e l₀ later) h')
    (hb : BoolToken later) (hlen : 2 * later.length < 2 ^ 28)
    (hgood : (run e l₀ (later ++ initOf h' .decrypt .aesCbc (.raw iv) k :: dec)).bad = false)
    (hdata : handedBy (talk e h' (run e l₀ (later ++ [initOf h' .decrypt .aesCbc (.raw iv) k])) dec) =
      writtenBy (talk e h (run e l₀ (cs ++ [initOf h .encrypt .aesCbc (.raw iv) k])) enc)) :
    (answer e (run e l₀ (later ++ initOf h' .decrypt .aesCbc (.raw iv) k :: dec)) (dataOf h' (.decryptFinal (.buf n')))).rv = .ok ∧
    writtenBy (talk e h' (run e l₀ (later ++ [initOf h' .decrypt .aesCbc (.raw iv) k])) dec) =
      handedBy (talk e h (run e l₀ (cs ++ [initOf h .encrypt .aesCbc (.raw iv) k])) enc) := by
  have hgl : (run e l₀ later).bad = false := by rw [run_append] at hgood; exact run_good hgood
  refine lasting_cbc ha hh hr h₀ hd cs enc mid dec h h' k n n' iv now hnow hinit henc hf hend later hlater ?_ hinit' hdec hf' hgood hdata
  intro o o' q q'
  exact ordered_key hx hse hh hr h₀ hd cs _ later (by rw [hlater, hnow, List.append_assoc]) hb hlen hk hs ho hclock hu hu' hgl q q'

/-- **C138** for AES-GCM in one part. -/
theorem c138_gcm (hx : StoreLaws e.store) (hse : SealLen e) (ha : e.crypto.gcm.Lawful) (hh : HashLen e) (hr : RandLen e)
    {l₀ : Lib} (h₀ : Start l₀) (hd : NoToken l₀) (cs cs₁ mid cs₂ : List Call) (h h' k n n' rnd rnd' t : Nat) (iv msg : Bytes)
    (aad : Option Bytes) (w : Out) (ht : t ≤ 128) (hn : msg.length ≤ n') (hmsg : msg.length < 2 ^ 31)
    (now : List Call) (hnow : now = cs ++ initOf h .encrypt .aesGcm (.gcm iv aad t) k :: cs₁)
    (hinit : (answer e (run e l₀ cs) (initOf h .encrypt .aesGcm (.gcm iv aad t) k)).rv = .ok)
    (hcs₁ : ∀ c ∈ cs₁, Bystander h k c)
    (henc : answer e (run e l₀ now) (dataOf h (.encrypt (some msg) (.buf n) rnd)) = { rv := .ok, out := some w })
    (later : List Call) (hlater : later = now ++ dataOf h (.encrypt (some msg) (.buf n) rnd) :: mid)
    (hk : handleOnToken k = true) (hs : NotDestroyed k (initOf h .encrypt .aesGcm (.gcm iv aad t) k :: cs₁ ++ dataOf h (.encrypt (some msg) (.buf n) rnd) :: mid))
    (ho : Ordered e l₀ later) (hclock : ClockWithin (2 ^ 62) (later.map .call)) (hu : UserIn e (run e l₀ cs) h) (hu' : UserIn e (run e l₀ later) h')
    (hinit' : (answer e (run e l₀ later) (initOf h' .decrypt .aesGcm (.gcm iv aad t) k)).rv = .ok)
    (hcs₂ : ∀ c ∈ cs₂, Bystander h' k c)
    (hb : BoolToken later) (hlen : 2 * later.length < 2 ^ 28)
    (hgood : (run e l₀ (later ++ initOf h' .decrypt .aesGcm (.gcm iv aad t) k :: cs₂)).bad = false) :
    answer e (run e l₀ (later ++ initOf h' .decrypt .aesGcm (.gcm iv aad t) k :: cs₂))
      (dataOf h' (.decrypt (some w.wr) (.buf n') rnd')) =
      { rv := .ok, out := some { rv := .ok, wr := msg, len := some msg.length } } := by
  have hgl : (run e l₀ later).bad = false := by rw [run_append] at hgood; exact run_good hgood
  refine lasting_gcm ha hh hr h₀ hd cs cs₁ mid cs₂ h h' k n n' rnd rnd' t iv msg aad w ht hn hmsg now hnow hinit hcs₁ henc later hlater ?_ hinit' hcs₂ hgood
  intro o o' q q'
  exact ordered_key hx hse hh hr h₀ hd cs _ later (by rw [hlater, hnow, List.append_assoc]) hb hlen hk hs ho hclock hu hu' hgl q q'

/-- **C138** for AES-CBC in one part. -/
theorem c138_cbc_single (hx : StoreLaws e.store) (hse : SealLen e) (ha : e.crypto.aes.Lawful) (hh : HashLen e) (hr : RandLen e)
    {l₀ : Lib} (h₀ : Start l₀) (hd : NoToken l₀) (cs cs₁ mid cs₂ : List Call) (h h' k n n' rnd rnd' : Nat) (iv msg : Bytes)
    (hmsg : msg.length % 16 = 0) (hn : msg.length ≤ n) (hn' : msg.length ≤ n')
    (now : List Call) (hnow : now = cs ++ initOf h .encrypt .aesCbc (.raw iv) k :: cs₁)
    (hinit : (answer e (run e l₀ cs) (initOf h .encrypt .aesCbc (.raw iv) k)).rv = .ok)
    (hcs₁ : ∀ c ∈ cs₁, Bystander h k c)
    (later : List Call) (hlater : later = now ++ dataOf h (.encrypt (some msg) (.buf n) rnd) :: mid)
    (hk : handleOnToken k = true) (hs : NotDestroyed k (initOf h .encrypt .aesCbc (.raw iv) k :: cs₁ ++ dataOf h (.encrypt (some msg) (.buf n) rnd) :: mid))
    (ho : Ordered e l₀ later) (hclock : ClockWithin (2 ^ 62) (later.map .call)) (hu : UserIn e (run e l₀ cs) h) (hu' : UserIn e (run e l₀ later) h')
    (hinit' : (answer e (run e l₀ later) (initOf h' .decrypt .aesCbc (.raw iv) k)).rv = .ok)
    (hcs₂ : ∀ c ∈ cs₂, Bystander h' k c)
    (hb : BoolToken later) (hlen : 2 * later.length < 2 ^ 28)
    (hgood : (run e l₀ (later ++ initOf h' .decrypt .aesCbc (.raw iv) k :: cs₂)).bad = false) :
    (answer e (run e l₀ now) (dataOf h (.encrypt (some msg) (.buf n) rnd))).rv = .ok ∧
    answer e (run e l₀ (later ++ initOf h' .decrypt .aesCbc (.raw iv) k :: cs₂))
      (dataOf h' (.decrypt (some (answer e (run e l₀ now) (dataOf h (.encrypt (some msg) (.buf n) rnd))).wr) (.buf n') rnd')) =
      { rv := .ok, out := some { rv := .ok, wr := msg, len := some msg.length } } := by
  have hgl : (run e l₀ later).bad = false := by rw [run_append] at hgood; exact run_good hgood
  refine lasting_cbc_single ha hh hr h₀ hd cs cs₁ mid cs₂ h h' k n n' rnd rnd' iv msg hmsg hn hn' now hnow hinit hcs₁ later hlater ?_ hinit' hcs₂ hgood
  intro o o' q q'
  exact ordered_key hx hse hh hr h₀ hd cs _ later (by rw [hlater, hnow, List.append_assoc]) hb hlen hk hs ho hclock hu hu' hgl q q'

/-- **C138** for AES-GCM, decrypted in parts. -/
theorem c138_gcm_parts (hx : StoreLaws e.store) (hse : SealLen e) (ha : e.crypto.gcm.Lawful) (hh : HashLen e) (hr : RandLen e)
    {l₀ : Lib} (h₀ : Start l₀) (hd : NoToken l₀) (cs cs₁ mid dec : List Call) (h h' k n n' rnd t : Nat) (iv msg : Bytes)
    (aad : Option Bytes) (w : Out) (ht : t ≤ 128) (hn : msg.length ≤ n') (hmsg : msg.length < 2 ^ 31)
    (now : List Call) (hnow : now = cs ++ initOf h .encrypt .aesGcm (.gcm iv aad t) k :: cs₁)
    (hinit : (answer e (run e l₀ cs) (initOf h .encrypt .aesGcm (.gcm iv aad t) k)).rv = .ok)
    (hcs₁ : ∀ c ∈ cs₁, Bystander h k c)
    (henc : answer e (run e l₀ now) (dataOf h (.encrypt (some msg) (.buf n) rnd)) = { rv := .ok, out := some w })
    (later : List Call) (hlater : later = now ++ dataOf h (.encrypt (some msg) (.buf n) rnd) :: mid)
    (hk : handleOnToken k = true) (hs : NotDestroyed k (initOf h .encrypt .aesGcm (.gcm iv aad t) k :: cs₁ ++ dataOf h (.encrypt (some msg) (.buf n) rnd) :: mid))
    (ho : Ordered e l₀ later) (hclock : ClockWithin (2 ^ 62) (later.map .call)) (hu : UserIn e (run e l₀ cs) h) (hu' : UserIn e (run e l₀ later) h')
    (hinit' : (answer e (run e l₀ later) (initOf h' .decrypt .aesGcm (.gcm iv aad t) k)).rv = .ok)
    (hdec : ∀ c ∈ dec, DecryptsOr h' k c)
    (hb : BoolToken later) (hlen : 2 * later.length < 2 ^ 28)
    (hgood : (run e l₀ (later ++ initOf h' .decrypt .aesGcm (.gcm iv aad t) k :: dec)).bad = false)
    (hdata : handedBy (talk e h' (run e l₀ (later ++ [initOf h' .decrypt .aesGcm (.gcm iv aad t) k])) dec) = w.wr) :
    writtenBy (talk e h' (run e l₀ (later ++ [initOf h' .decrypt .aesGcm (.gcm iv aad t) k])) dec) = [] ∧
    answer e (run e l₀ (later ++ initOf h' .decrypt .aesGcm (.gcm iv aad t) k :: dec)) (dataOf h' (.decryptFinal (.buf n'))) =
      { rv := .ok, out := some { rv := .ok, wr := msg, len := some msg.length } } := by
  have hgl : (run e l₀ later).bad = false := by rw [run_append] at hgood; exact run_good hgood
  refine lasting_gcm_parts ha hh hr h₀ hd cs cs₁ mid dec h h' k n n' rnd t iv msg aad w ht hn hmsg now hnow hinit hcs₁ henc later hlater ?_ hinit' hdec hgood hdata
  intro o o' q q'
  exact ordered_key hx hse hh hr h₀ hd cs _ later (by rw [hlater, hnow, List.append_assoc]) hb hlen hk hs ho hclock hu hu' hgl q q'

/-- **C138** for HMACs in parts. -/
theorem c138_hmac (hx : StoreLaws e.store) (hse : SealLen e) (ha : e.crypto.mac.Lawful) (hh : HashLen e) (hr : RandLen e)
    {l₀ : Lib} (h₀ : Start l₀) (hd : NoToken l₀) (cs sign mid ver : List Call) (h h' k n : Nat) (a : HmacAlg)
    (p p' : MechParam) (sig : Bytes)
    (now : List Call) (hnow : now = cs ++ initOf h .sign (.hmac a) p k :: sign)
    (hinit : (answer e (run e l₀ cs) (initOf h .sign (.hmac a) p k)).rv = .ok) (hsign : ∀ c ∈ sign, SignsOr h k c)
    (hmac : (answer e (run e l₀ now) (dataOf h (.signFinal (.buf n)))).rv = .ok)
    (later : List Call) (hlater : later = now ++ dataOf h (.signFinal (.buf n)) :: mid)
    (hk : handleOnToken k = true) (hs : NotDestroyed k (initOf h .sign (.hmac a) p k :: sign ++ dataOf h (.signFinal (.buf n)) :: mid))
    (ho : Ordered e l₀ later) (hclock : ClockWithin (2 ^ 62) (later.map .call)) (hu : UserIn e (run e l₀ cs) h) (hu' : UserIn e (run e l₀ later) h')
    (hinit' : (answer e (run e l₀ later) (initOf h' .verify (.hmac a) p' k)).rv = .ok) (hver : ∀ c ∈ ver, VerifiesOr h' k c)
    (hb : BoolToken later) (hlen : 2 * later.length < 2 ^ 28)
    (hgood : (run e l₀ (later ++ initOf h' .verify (.hmac a) p' k :: ver)).bad = false)
    (hdata : handedBy (talk e h' (run e l₀ (later ++ [initOf h' .verify (.hmac a) p' k])) ver) =
      handedBy (talk e h (run e l₀ (cs ++ [initOf h .sign (.hmac a) p k])) sign)) :
    (answer e (run e l₀ (later ++ initOf h' .verify (.hmac a) p' k :: ver)) (dataOf h' (.verifyFinal (some sig)))).rv =
      if sig = (answer e (run e l₀ now) (dataOf h (.signFinal (.buf n)))).wr then .ok else .signatureInvalid := by
  have hgl : (run e l₀ later).bad = false := by rw [run_append] at hgood; exact run_good hgood
  refine lasting_hmac ha hh hr h₀ hd cs sign mid ver h h' k n a p p' sig now hnow hinit hsign hmac later hlater ?_ hinit' hver hgood hdata
  intro o o' q q'
  exact ordered_key hx hse hh hr h₀ hd cs _ later (by rw [hlater, hnow, List.append_assoc]) hb hlen hk hs ho hclock hu hu' hgl q q'

/-- **C138** for HMACs in one part. -/
theorem c138_hmac_single (hx : StoreLaws e.store) (hse : SealLen e) (ha : e.crypto.mac.Lawful) (hh : HashLen e) (hr : RandLen e)
    {l₀ : Lib} (h₀ : Start l₀) (hd : NoToken l₀) (cs cs₁ mid cs₂ : List Call) (h h' k n rnd : Nat) (a : HmacAlg)
    (p p' : MechParam) (msg sig : Bytes)
    (now : List Call) (hnow : now = cs ++ initOf h .sign (.hmac a) p k :: cs₁)
    (hinit : (answer e (run e l₀ cs) (initOf h .sign (.hmac a) p k)).rv = .ok) (hcs₁ : ∀ c ∈ cs₁, Bystander h k c)
    (hmac : (answer e (run e l₀ now) (dataOf h (.sign (some msg) (.buf n) rnd))).rv = .ok)
    (later : List Call) (hlater : later = now ++ dataOf h (.sign (some msg) (.buf n) rnd) :: mid)
    (hk : handleOnToken k = true) (hs : NotDestroyed k (initOf h .sign (.hmac a) p k :: cs₁ ++ dataOf h (.sign (some msg) (.buf n) rnd) :: mid))
    (ho : Ordered e l₀ later) (hclock : ClockWithin (2 ^ 62) (later.map .call)) (hu : UserIn e (run e l₀ cs) h) (hu' : UserIn e (run e l₀ later) h')
    (hinit' : (answer e (run e l₀ later) (initOf h' .verify (.hmac a) p' k)).rv = .ok) (hcs₂ : ∀ c ∈ cs₂, Bystander h' k c)
    (hb : BoolToken later) (hlen : 2 * later.length < 2 ^ 28)
    (hgood : (run e l₀ (later ++ initOf h' .verify (.hmac a) p' k :: cs₂)).bad = false) :
    (answer e (run e l₀ (later ++ initOf h' .verify (.hmac a) p' k :: cs₂)) (dataOf h' (.verify (some msg) (some sig)))).rv =
      if sig = (answer e (run e l₀ now) (dataOf h (.sign (some msg) (.buf n) rnd))).wr then .ok else .signatureInvalid := by
  have hgl : (run e l₀ later).bad = false := by rw [run_append] at hgood; exact run_good hgood
  refine lasting_hmac_single ha hh hr h₀ hd cs cs₁ mid cs₂ h h' k n rnd a p p' msg sig now hnow hinit hcs₁ hmac later hlater ?_ hinit' hcs₂ hgood
  intro o o' q q'
  exact ordered_key hx hse hh hr h₀ hd cs _ later (by rw [hlater, hnow, List.append_assoc]) hb hlen hk hs ho hclock hu hu' hgl q q'

/-- **C138** for wrapped keys: what `C_WrapKey` answered for an RSA private key under an AES key of the
token is unwrapped later into a key with the same numbers. -/
theorem c138_wrap (hx : StoreLaws e.store) (hse : SealLen e) (hh : HashLen e) (hr : RandLen e) (ha : e.crypto.aes.Lawful) (hp : Pkcs8Lawful e)
    {l₀ : Lib} (h₀ : Start l₀) (hd : NoToken l₀) (cs mid later : List Call) (h wk key h' n : Nat) (iv : Bytes) (t : List Entry) (w : Out)
    (hlater : later = cs ++ mid) (hb : BoolToken (later ++ [unwrapCall h' wk iv w.wr t])) (hn : 2 * (later.length + 1) < 2 ^ 28)
    (hwrap : answer e (run e l₀ cs) (wrapCall h wk key iv n) = { rv := .ok, out := some w })
    (hE : Emptied (run e l₀ cs) h) (hE' : Emptied (run e l₀ later) h')
    (hk : handleOnToken wk = true) (hs : NotDestroyed wk mid) (ho : Ordered e l₀ later)
    (hclock : ClockWithin (2 ^ 62) (later.map .call)) (hu : UserIn e (run e l₀ cs) h) (hu' : UserIn e (run e l₀ later) h')
    (hok : (answer e (run e l₀ later) (unwrapCall h' wk iv w.wr t)).rv = .ok) :
    ∃ k q, (answer e (run e l₀ later) (unwrapCall h' wk iv w.wr t)).handle = some k ∧
      Addressed (run e l₀ (later ++ [unwrapCall h' wk iv w.wr t])) h' k q ∧
      ∀ o, Addressed (run e l₀ cs) h key o → q.rsa = o.rsa := by
  have hb1 : BoolToken later := fun d hd => hb d (List.mem_append_left _ hd)
  obtain ⟨_, _, hgood, _⟩ := user_of_state (h₀.sinv.run e later) hu'
  have hl : cs.length ≤ later.length := by rw [hlater, List.length_append]; omega
  exact (c84_partial hh hr ha hp h₀ hd h₀ hd cs later h wk key h' wk n iv t w
    (fun d hd => hb1 d (by rw [hlater]; exact List.mem_append_left _ hd)) (by omega) hb hn hwrap hE hE' (fun o o' q q' => by
      unfold Obj.symm
      rw [ordered_key hx hse hh hr h₀ hd cs mid later hlater hb1 (by omega) hk hs ho hclock hu hu' hgood q q'])).2 hok

namespace Demo

/-- The message of C108 is encrypted; then come the PIN change, the other key and the restarts of C125. -/
def endured : List Call := withKey ++ sealing ++ dataOf 65538 (.encryptFinal (.buf 16)) :: longerWay

set_option maxRecDepth 100000 in
/-- The hypotheses of `c138_cbc_pad` are met. -/
example : Ordered env fresh endured ∧ BoolToken endured ∧ ClockWithin (2 ^ 62) (endured.map .call) ∧
    NotDestroyed tok1 (sealing ++ dataOf 65538 (.encryptFinal (.buf 16)) :: longerWay) ∧
    UserIn env (run env fresh withKey) 65538 ∧ UserIn env (run env fresh endured) 65538 ∧
    (answer env (run env fresh withKey) (initOf 65538 .encrypt .aesCbcPad (.raw iv) tok1)).rv = .ok ∧
    (answer env (run env fresh endured) (initOf 65538 .decrypt .aesCbcPad (.raw iv) tok1)).rv = .ok ∧ Emptied (run env fresh endured) 65538 ∧
    (run env fresh (endured ++ initOf 65538 .decrypt .aesCbcPad (.raw iv) tok1 :: unsealing)).bad = false ∧
    handedBy (talk env 65538 (run env fresh (endured ++ [initOf 65538 .decrypt .aesCbcPad (.raw iv) tok1])) unsealing) = sealed ∧
    writtenBy (talk env 65538 (run env fresh (endured ++ [initOf 65538 .decrypt .aesCbcPad (.raw iv) tok1])) unsealing) ++
      (answer env (run env fresh (endured ++ initOf 65538 .decrypt .aesCbcPad (.raw iv) tok1 :: unsealing))
        (dataOf 65538 (.decryptFinal (.buf 16)))).wr = List.replicate 20 7 := by
  refine ⟨ordered_of (by decide +kernel), by unfold BoolToken; decide +kernel, clockWithin_of (by decide), ?_, by unfold UserIn; decide +kernel,
    by unfold UserIn; decide +kernel, by decide +kernel, by decide +kernel, by unfold Emptied OpSt.Emptied NothingBuffered; decide +kernel,
    by decide +kernel, by decide +kernel, by decide +kernel⟩
  intro h hm
  simp [sealing, initOf, dataOf, longerWay, longWay, openCall, createCall, loginCall, tok1] at hm

/-- A secret key on the token for HMACs. -/
def macTok : List Call := setup ++ [createCall 65538 [.of .cls (ulong CKO_SECRET_KEY), .of .keyType (ulong CKK_GENERIC_SECRET),
  .of .value (List.replicate 32 5), .of .token [1]]]

/-- The HMAC of a message, and what follows it. -/
def macEndured : List Call :=
  macTok ++ [initOf 65538 .sign (.hmac .sha256) (.null 0) tok1] ++ dataOf 65538 (.sign (some [1, 2, 3]) (.buf 32) 0) :: longerWay

set_option maxRecDepth 100000 in
/-- The hypotheses of `c138_hmac_single` are met. -/
example : Ordered env fresh macEndured ∧ BoolToken macEndured ∧ ClockWithin (2 ^ 62) (macEndured.map .call) ∧
    UserIn env (run env fresh macTok) 65538 ∧ UserIn env (run env fresh macEndured) 65538 ∧
    (answer env (run env fresh macTok) (initOf 65538 .sign (.hmac .sha256) (.null 0) tok1)).rv = .ok ∧
    (answer env (run env fresh (macTok ++ [initOf 65538 .sign (.hmac .sha256) (.null 0) tok1]))
      (dataOf 65538 (.sign (some [1, 2, 3]) (.buf 32) 0))).rv = .ok ∧
    (answer env (run env fresh macEndured) (initOf 65538 .verify (.hmac .sha256) (.null 0) tok1)).rv = .ok ∧
    (run env fresh (macEndured ++ [initOf 65538 .verify (.hmac .sha256) (.null 0) tok1])).bad = false :=
  ⟨ordered_of (by decide +kernel), by unfold BoolToken; decide +kernel, clockWithin_of (by decide), by unfold UserIn; decide +kernel,
    by unfold UserIn; decide +kernel, by decide +kernel, by decide +kernel, by decide +kernel, by decide +kernel⟩

/-- AES-GCM and AES-CBC in one part. -/
def gcmEndured : List Call := withKey ++ [gcmInit .encrypt] ++ dataOf 65538 (.encrypt (some [1, 2, 3]) (.buf 7) 0) :: longerWay

def cbcEndured : List Call := withKey ++ [cbcInit .encrypt] ++ cbcOne :: longerWay

set_option maxRecDepth 100000 in
/-- The hypotheses of `c138_gcm`, `c138_gcm_parts` and `c138_cbc_single` are met. -/
example : Ordered env fresh gcmEndured ∧ UserIn env (run env fresh gcmEndured) 65538 ∧
    (answer env (run env fresh gcmEndured) (gcmInit .decrypt)).rv = .ok ∧
    (run env fresh (gcmEndured ++ gcmInit .decrypt :: gcmParts)).bad = false ∧
    handedBy (talk env 65538 (run env fresh (gcmEndured ++ [gcmInit .decrypt])) gcmParts) = gcmOut.wr ∧
    Ordered env fresh cbcEndured ∧ UserIn env (run env fresh cbcEndured) 65538 ∧
    (answer env (run env fresh cbcEndured) (cbcInit .decrypt)).rv = .ok ∧ (run env fresh (cbcEndured ++ [cbcInit .decrypt])).bad = false :=
  ⟨ordered_of (by decide +kernel), by unfold UserIn; decide +kernel, by decide +kernel, by decide +kernel, by decide +kernel,
    ordered_of (by decide +kernel), by unfold UserIn; decide +kernel, by decide +kernel, by decide +kernel⟩

def wrapOrdered? (l : Lib) : List Call → Bool
  | [] => true
  | c :: cs => orderly? l c && wrapOrdered? (Verif.step wrapEnv l c).1 cs

theorem wrapOrdered_of {l : Lib} {cs : List Call} (h : wrapOrdered? l cs = true) : Ordered wrapEnv l cs := by
  induction cs generalizing l with
  | nil => trivial
  | cons c cs ih =>
    rw [wrapOrdered?, Bool.and_eq_true] at h
    exact ⟨orderly_of h.1, ih h.2⟩

/-- An AES key on the token, and an RSA private key in the session. -/
def wrapTok : List Call := setup ++ [createCall 65538 (aesTmpl true 5),
  createCall 65538 [.of .cls (ulong CKO_PRIVATE_KEY), .of .keyType (ulong CKK_RSA), .of .modulus [143],
    .of .publicExponent [7], .of .privateExponent [103]]]

/-- What wrapping it gives. -/
def wrapOut : Out := ((answer wrapEnv (run wrapEnv fresh wrapTok) (wrapCall 65538 tok1 1 iv 16)).out).getD { rv := .ok }

def wrapEndured : List Call := wrapTok ++ wrapCall 65538 tok1 1 iv 16 :: longerWay

set_option maxRecDepth 100000 in
/-- The hypotheses of `c138_wrap` are met. -/
example : StoreLaws wrapEnv.store ∧ SealLen wrapEnv ∧ Ordered wrapEnv fresh wrapEndured ∧
    BoolToken (wrapEndured ++ [unwrapCall 65538 tok1 iv wrapOut.wr unwrapTmpl]) ∧ ClockWithin (2 ^ 62) (wrapEndured.map .call) ∧
    NotDestroyed tok1 (wrapCall 65538 tok1 1 iv 16 :: longerWay) ∧
    answer wrapEnv (run wrapEnv fresh wrapTok) (wrapCall 65538 tok1 1 iv 16) = { rv := .ok, out := some wrapOut } ∧
    Emptied (run wrapEnv fresh wrapTok) 65538 ∧ Emptied (run wrapEnv fresh wrapEndured) 65538 ∧
    UserIn wrapEnv (run wrapEnv fresh wrapTok) 65538 ∧ UserIn wrapEnv (run wrapEnv fresh wrapEndured) 65538 ∧
    answer wrapEnv (run wrapEnv fresh wrapEndured) (unwrapCall 65538 tok1 iv wrapOut.wr unwrapTmpl) = { rv := .ok, handle := some 1 } := by
  refine ⟨store_laws, ⟨sealLen.1, sealLen.2, sealLen.3, sealLen.4, sealLen.5, sealLen.6⟩, wrapOrdered_of (by decide +kernel), by unfold BoolToken; decide +kernel,
    clockWithin_of (by decide), ?_, by decide +kernel, by unfold Emptied OpSt.Emptied NothingBuffered; decide +kernel,
    by unfold Emptied OpSt.Emptied NothingBuffered; decide +kernel, by unfold UserIn; decide +kernel, by unfold UserIn; decide +kernel,
    by decide +kernel⟩
  intro h hm
  simp [wrapCall, longerWay, longWay, openCall, createCall, loginCall, tok1] at hm

end Demo

end Verif
