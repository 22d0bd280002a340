import Verif.Props.Lives
import Verif.Spec.Counters
import Verif.Proofs.AllObj
import Verif.Proofs.Typed

/-!
# C121: the counts and times of failed logins never overflow
-/

namespace Verif

variable {e : Env}

/-- The counter and the times of an account after `n` events with the clock at most at `B`. -/
structure Account.Counted (B : Int) (n : Nat) (a : Account) : Prop where
  lo : 0 ≤ a.fails
  hi : a.fails ≤ 3
  last0 : 0 ≤ a.last
  last : a.last ≤ B
  time0 : 0 ≤ a.timeout
  time : a.timeout ≤ 600 * n

namespace Account.Counted

variable {B : Int} {n : Nat} {a : Account}

theorem default (hB : 0 ≤ B) : ({} : Account).Counted B n :=
  ⟨Int.le_refl _, by decide, Int.le_refl _, hB, Int.le_refl _, by show (0 : Int) ≤ _; omega⟩

theorem mono (h : a.Counted B n) : a.Counted B (n + 1) :=
  ⟨h.lo, h.hi, h.last0, h.last, h.time0, by have := h.time; omega⟩

theorem withPin (h : a.Counted B n) (p s : Bytes) : (a.withPin e p s).Counted B n :=
  ⟨h.lo, h.hi, h.last0, h.last, h.time0, h.time⟩

theorem lockCheck {b : Account} {now : Int} (h : a.Counted B n) (hl : lockCheck a now = some b) :
    b.Counted B n ∧ b.fails ≤ 2 := by
  unfold Verif.lockCheck at hl
  have h1 := h.lo
  have h2 := h.hi
  split at hl
  · split at hl
    · cases hl
      exact ⟨⟨Int.le_refl _, show (0 : Int) ≤ 3 by decide, h.last0, h.last, h.time0, h.time⟩, show (0 : Int) ≤ 2 by decide⟩
    · cases hl
  · rename_i hne
    cases hl
    have : a.fails ≠ 3 := hne
    exact ⟨h, by omega⟩

theorem failed {now add : Int} (h : a.Counted B n) (hf : a.fails ≤ 2) (hnow : 0 ≤ now ∧ now ≤ B) (hadd : 0 ≤ add ∧ add ≤ 600) :
    (failed a now add).Counted B (n + 1) := by
  have h1 := h.lo
  have h2 := h.time0
  have h3 := h.time
  unfold Verif.failed
  split
  · refine ⟨?_, ?_, hnow.1, hnow.2, ?_, ?_⟩
    · show 0 ≤ a.fails + 1; omega
    · show a.fails + 1 ≤ 3; omega
    · show 0 ≤ a.timeout + add; omega
    · show a.timeout + add ≤ 600 * ((n + 1 : Nat) : Int); omega
  · refine ⟨?_, ?_, h.last0, h.last, h2, ?_⟩
    · show 0 ≤ a.fails + 1; omega
    · show a.fails + 1 ≤ 3; omega
    · show a.timeout ≤ 600 * ((n + 1 : Nat) : Int); omega

theorem succeeded (hB : 0 ≤ B) : (succeeded a).Counted B n :=
  ⟨Int.le_refl _, by show (0 : Int) ≤ 3; decide, Int.le_refl _, hB, Int.le_refl _, by show (0 : Int) ≤ _; omega⟩

theorem fits (h : a.Counted B n) (hs : a.Shape) (hB : B ≤ 2 ^ 62) (hn : n < 2 ^ 50) : a.Fits := by
  obtain ⟨h1, h2, h3, h4, h5, h6⟩ := h
  exact ⟨hs.pin, hs.seed, ⟨by omega, by omega⟩, ⟨by omega, by omega⟩, ⟨by omega, by omega⟩⟩

theorem noOverflow (h : a.Counted B n) (hB : B ≤ 2 ^ 62) (hn : n < 2 ^ 50) : a.NoOverflow := by
  obtain ⟨h1, h2, h3, h4, h5, h6⟩ := h
  exact ⟨⟨h1, h2⟩, ⟨by omega, by omega⟩, ⟨by omega, by omega⟩, ⟨by omega, by omega⟩, ⟨by omega, by omega⟩, ⟨by omega, by omega⟩⟩

end Account.Counted

/-- The accounts in memory and in the token's file. -/
structure CountInv (B : Int) (n : Nat) (l : Lib) : Prop where
  shape : Shape l.token
  so : l.token.so.Counted B n
  user : l.token.user.Counted B n
  file : ∀ b, l.disk (.token, 0) = some b → ∃ r : TokenRec, b = wrToken r ∧ r.label.length = 32 ∧ r.so.Shape ∧ r.user.Shape ∧
    r.so.Counted B n ∧ r.user.Counted B n

theorem CountInv.mono {B : Int} {n : Nat} {l : Lib} (h : CountInv B n l) : CountInv B (n + 1) l :=
  ⟨h.shape, h.so.mono, h.user.mono, fun b hb => by
    obtain ⟨r, h1, h2, h3, h4, h5, h6⟩ := h.file b hb
    exact ⟨r, h1, h2, h3, h4, h5.mono, h6.mono⟩⟩

theorem rd_sameAccounts {r r' : TokenRec} {rest : Bytes} (h : r.label.length = 32) (h1 : r.so.Fits) (h2 : r.user.Fits)
    (hr : rdToken (wrToken r) = some (r', rest)) : r'.so = r.so ∧ r'.user = r.user := by
  have h0 : rdToken (r.label ++ (wrAccount r.so ++ (wrAccount r.user ++ (r.seed ++
      (wrInt r.types.length ++ (r.types.map wrUlong).flatten))))) = some (r', rest) := by
    simpa only [wrToken, List.append_assoc] using hr
  obtain ⟨_, b1, g1, h0⟩ := rd_bind h0
  rw [(ReadsBack.fixed h).1] at g1; cases g1
  obtain ⟨_, b2, g2, h0⟩ := rd_bind h0
  rw [(readsBack_account _ h1).1] at g2; cases g2
  obtain ⟨_, b3, g3, h0⟩ := rd_bind h0
  rw [(readsBack_account _ h2).1] at g3; cases g3
  obtain ⟨_, b4, g4, h0⟩ := rd_bind h0
  obtain ⟨_, b5, g5, h0⟩ := rd_bind h0
  obtain ⟨_, b6, g6, h0⟩ := rd_bind h0
  cases h0
  exact ⟨rfl, rfl⟩

theorem CountInv.load {B : Int} {n : Nat} {l : Lib} (h : CountInv B n l) (h0 : 0 ≤ B) (hB : B ≤ 2 ^ 62) (hn : n < 2 ^ 50) :
    (loadToken e.store l.disk l.uid).so.Counted B n ∧ (loadToken e.store l.disk l.uid).user.Counted B n := by
  unfold loadToken
  cases hf : l.disk (.token, 0) with
  | none => exact ⟨.default h0, .default h0⟩
  | some b =>
    obtain ⟨r, rfl, h1, h2, h3, h4, h5⟩ := h.file b hf
    dsimp only
    split
    · exact ⟨.default h0, .default h0⟩
    · rename_i r' rest hrd
      split
      · exact ⟨.default h0, .default h0⟩
      · obtain ⟨q1, q2⟩ := rd_sameAccounts h1 (h4.fits h2 hB hn) (h5.fits h3 hB hn) hrd
        exact ⟨by show r'.so.Counted B n; rw [q1]; exact h4, by show r'.user.Counted B n; rw [q2]; exact h5⟩

theorem soLogin_counted {B : Int} {n : Nat} {l : Lib} {pin : Bytes} {now : Int} (h0 : 0 ≤ B) (h : l.token.so.Counted B n) (hnow : 0 ≤ now ∧ now ≤ B) :
    (soLogin e l pin now).1.token.so.Counted B (n + 1) := by
  unfold soLogin
  split
  · exact h.mono
  split
  · exact h.mono
  rename_i a ha
  obtain ⟨h1, h2⟩ := h.lockCheck ha
  dsimp only
  repeat' split
  · exact h1.mono
  · exact h1.mono
  · exact h1.failed h2 hnow ⟨by decide, by decide⟩
  · exact .succeeded h0

theorem userLogin_counted {B : Int} {n : Nat} {l : Lib} {pin : Bytes} {now : Int} (h0 : 0 ≤ B) (h : l.token.user.Counted B n) (hnow : 0 ≤ now ∧ now ≤ B) :
    (userLogin e l pin now).1.token.user.Counted B (n + 1) := by
  unfold userLogin
  split
  · exact h.mono
  split
  · exact h.mono
  rename_i a ha
  obtain ⟨h1, h2⟩ := h.lockCheck ha
  dsimp only
  repeat' split
  · exact h1.mono
  · exact h1.failed h2 hnow ⟨by decide, by decide⟩
  · exact .succeeded h0
  · exact .succeeded h0
  · exact .succeeded h0

theorem counted_callBody {B : Int} {n : Nat} {l : Lib} (h0 : 0 ≤ B) (hB : B ≤ 2 ^ 62) (hn : n < 2 ^ 50) (h : CountInv B n l) (c : Call)
    (hc : ∀ k u pin now, c = .sess k (.login u pin now) → 0 ≤ now ∧ now ≤ B) :
    (callBody e l c).1.token.so.Counted B (n + 1) ∧ (callBody e l c).1.token.user.Counted B (n + 1) := by
  have hstay : l.token.so.Counted B (n + 1) ∧ l.token.user.Counted B (n + 1) := ⟨h.so.mono, h.user.mono⟩
  by_cases hon : c.onAccounts = false
  · obtain ⟨h1, h2, _⟩ := sameAcct_callBody e l c hon
    rw [h1, h2]; exact hstay
  cases c with
  | cInit =>
    simp only [callBody, cInitialize]
    split
    · obtain ⟨q1, q2⟩ := h.load (e := e) h0 hB hn
      exact ⟨q1.mono, q2.mono⟩
    · exact hstay
  | cFinal =>
    simp only [callBody, cFinalize]
    split
    · exact ⟨.default h0, .default h0⟩
    · exact hstay
  | slot id sc =>
    simp only [callBody]
    split; · exact hstay
    split; · exact hstay
    cases sc with
    | initToken p lab =>
      simp only [slotCall]
      rcases initToken_spec e l p lab with h' | ⟨_, _, _, _, _, _, _, h'⟩
      · rw [h'.1]; exact hstay
      · rw [h']; exact ⟨(Account.Counted.default h0).withPin .., .default h0⟩
    | _ => exact absurd rfl hon
  | sess k sc =>
    simp only [callBody]
    split; · exact hstay
    split; · exact hstay
    rename_i t _
    cases sc
    case login u pin now =>
      have hnow := hc k u pin now rfl
      simp only [sessCall, login]
      repeat' split
      · exact hstay
      · exact hstay
      · exact ⟨soLogin_counted h0 h.so hnow, by dsimp only; rw [(soLogin_acct e l _ now).2.1]; exact hstay.2⟩
      · exact ⟨by dsimp only; rw [(userLogin_acct e l _ now).2.1]; exact hstay.1, userLogin_counted h0 h.user hnow⟩
      · exact hstay
      · exact hstay
    case initPin p =>
      simp only [sessCall]
      rcases initPin_spec e l t p with h' | ⟨_, _, _, _, h'⟩
      · rw [h'.1]; exact hstay
      · rw [h']; exact ⟨hstay.1, hstay.2.withPin ..⟩
    case setPin o n =>
      simp only [sessCall]
      rcases setPin_spec e l t o n with h' | ⟨_, _, _, _, _, _, ⟨_, _, h'⟩ | ⟨_, _, h'⟩⟩
      · rw [h'.1]; exact hstay
      · rw [h']; exact ⟨hstay.1.withPin .., hstay.2⟩
      · rw [h']; exact ⟨hstay.1, hstay.2.withPin ..⟩
    all_goals exact absurd rfl hon

theorem CountInv.call (hh : HashLen e) (hr : RandLen e) {B : Int} {n : Nat} {l : Lib} (h0 : 0 ≤ B) (hB : B ≤ 2 ^ 62) (hn : n < 2 ^ 50)
    (h : CountInv B n l) (c : Call) (hc : ∀ k u pin now, c = .sess k (.login u pin now) → 0 ≤ now ∧ now ≤ B) :
    CountInv B (n + 1) (step e l c).1 := by
  cases hb : l.bad with
  | true => rw [step_bad hb]; exact h.mono
  | false =>
    have hst := step_sessions (e := e) hb c
    obtain ⟨h1, h2⟩ := counted_callBody h0 hB hn h c hc
    have hs := shape_callBody hh hr h.shape c
    refine ⟨by rw [hst.2.2.1]; exact hs, by rw [hst.2.2.1]; exact h1, by rw [hst.2.2.1]; exact h2, ?_⟩
    rw [hst.2.2.2]
    intro b hx
    by_cases c1 : c = .cInit
    · subst c1
      have hd : (callBody e l .cInit).1.disk = l.disk := by simp only [callBody, cInitialize]; split <;> rfl
      rw [hd] at hx
      exact h.mono.file b hx
    by_cases c2 : c = .cFinal
    · subst c2
      by_cases hl : l.count - 1 = 0
      · have hd : (callBody e l .cFinal).1.disk (.token, 0) = some (wrToken l.token.toRec) := by
          simp only [callBody, cFinalize, if_pos hl]
          exact store_token_file e { l with count := l.count - 1 }
        rw [hd] at hx; cases hx
        exact ⟨_, rfl, h.shape.label, h.shape.so, h.shape.user, h.so.mono, h.user.mono⟩
      · have hd : (callBody e l .cFinal).1.disk = l.disk := by simp only [callBody, cFinalize, if_neg hl]
        rw [hd] at hx
        exact h.mono.file b hx
    rcases file_callBody (e := e) l c c1 c2 with ⟨hd, _⟩ | ⟨r, hd, ho⟩
    · rw [hd] at hx
      exact h.mono.file b hx
    · rw [hd] at hx; cases hx
      exact ⟨r, rfl, by rw [ho.label]; exact hs.label, by rw [ho.so]; exact hs.so, by rw [ho.user]; exact hs.user,
        by rw [ho.so]; exact h1, by rw [ho.user]; exact h2⟩

theorem CountInv.live (hh : HashLen e) (hr : RandLen e) {B : Int} {n : Nat} {l : Lib} (h0 : 0 ≤ B) (hB : B ≤ 2 ^ 62)
    (h : CountInv B n l) (vs : List Event) (hn : n + vs.length ≤ 2 ^ 49) (hv : ClockWithin B vs) :
    CountInv B (n + vs.length) (live e l vs) := by
  induction vs generalizing l n with
  | nil => exact h
  | cons v vs ih =>
    have hlen : n + (v :: vs).length = n + 1 + vs.length := by rw [List.length_cons]; omega
    rw [hlen] at hn ⊢
    have hv' : ClockWithin B vs := fun k u p w hm => hv k u p w (List.mem_cons_of_mem _ hm)
    cases v with
    | call c =>
      refine ih (h.call hh hr h0 hB (by omega) c (fun k u p w hc => hv k u p w (by rw [hc]; exact List.mem_cons_self))) hn hv'
    | killed =>
      refine ih (l := Event.killed.next e l) ⟨.default, .default h0, .default h0, ?_⟩ hn hv'
      exact h.mono.file

theorem Start.countInv {B : Int} {l : Lib} (h0 : 0 ≤ B) (h : Start l) (hd : NoToken l) : CountInv B 0 l where
  shape := by rw [h.token]; exact .default
  so := by rw [h.token]; exact .default h0
  user := by rw [h.token]; exact .default h0
  file b hb := by rw [hd] at hb; cases hb

/-- **C121**: over the lives of any number of processes on a directory, no sequence of less than
2^49 calls makes the counter or the times of failed logins of an account leave their C types, nor
anything computed from them; and the counter never passes its limit, whatever is lost on disk. -/
theorem c121 (hh : HashLen e) (hr : RandLen e) {l₀ : Lib} (h₀ : Start l₀) (hd : NoToken l₀) (vs : List Event)
    (hn : vs.length ≤ 2 ^ 49) (hv : ClockWithin (2 ^ 62) vs) :
    (live e l₀ vs).token.so.NoOverflow ∧ (live e l₀ vs).token.user.NoOverflow := by
  have h := (h₀.countInv (B := 2 ^ 62) (by decide) hd).live hh hr (by decide) (by decide) vs (by omega) hv
  exact ⟨h.so.noOverflow (by decide) (by omega), h.user.noOverflow (by decide) (by omega)⟩

theorem encodeObj_type (x : StoreExt) (k : Bytes) (p : Bool) (o : Obj) : (encodeObj x k p o).2.typ = o.typ := by
  have h1 : (encodeKey x k o).2.typ = o.typ := by
    unfold encodeKey
    repeat' split
    all_goals rfl
  have h2 : ∀ o : Obj, (cleared o).typ = o.typ := by
    intro o
    unfold cleared
    repeat' split
    all_goals rfl
  unfold encodeObj
  dsimp only
  repeat' split
  · rfl
  · exact (h2 _).trans h1
  · exact h1

theorem decodeObj_type (x : StoreExt) (k : Bytes) (o : Obj) : (decodeObj x k o).2.typ = o.typ := by
  show (decodeKey x k o).2.typ = o.typ
  unfold decodeKey decodeRsa decodeEcc decodeDh decodeSymm decoded
  repeat' split
  all_goals rfl

theorem pairGen_type {rng : Nat} {m : Mech} {typ : Nat} {gen : Obj → Obj → IRet × Obj × Obj}
    (h : pairGen e rng m = some (typ, gen)) {a b a' b' : Obj} {r : IRet} (hg : gen a b = (r, a', b')) :
    a'.typ = a.typ ∧ b'.typ = b.typ := by
  unfold pairGen at h
  split at h
  · obtain ⟨_, rfl⟩ := Prod.mk.inj (Option.some.inj h)
    unfold rsaGenerate at hg
    dsimp only at hg
    repeat' split at hg
    all_goals obtain ⟨_, hh⟩ := Prod.mk.inj hg; obtain ⟨rfl, rfl⟩ := Prod.mk.inj hh; exact ⟨rfl, rfl⟩
  · obtain ⟨_, rfl⟩ := Prod.mk.inj (Option.some.inj h)
    unfold ecGenerate at hg
    repeat' split at hg
    all_goals obtain ⟨_, hh⟩ := Prod.mk.inj hg; obtain ⟨rfl, rfl⟩ := Prod.mk.inj hh; exact ⟨rfl, rfl⟩
  · obtain ⟨_, rfl⟩ := Prod.mk.inj (Option.some.inj h)
    unfold dhGenerate at hg
    dsimp only at hg
    repeat' split at hg
    all_goals obtain ⟨_, hh⟩ := Prod.mk.inj hg; obtain ⟨rfl, rfl⟩ := Prod.mk.inj hh; exact ⟨rfl, rfl⟩
  · cases h

theorem deriveTail_type {x : KeyExt} {o o' : Obj} {b : Bytes} (h : (deriveTail x o b).obj = some o') : o'.typ = o.typ := by
  have hs : ∀ v, (setSecretKey o v).2.typ = o.typ := by
    intro v
    unfold setSecretKey
    repeat' split
    all_goals rfl
  unfold deriveTail at h
  split at h
  · cases h
  dsimp only at h
  split at h
  · cases h
  split at h
  · rename_i heq
    cases h
    have := hs (fun a => if a = .value then some (b.drop (b.length - ‹Nat›)) else none)
    rw [heq] at this
    exact this
  · cases h
  · cases h

theorem rdObject_type {o o' : Obj} {b rest : Bytes} (h : rdObject o b = some (o', rest)) : o'.typ = o.typ := by
  unfold rdObject at h
  obtain ⟨_, _, _, h⟩ := rd_bind h
  obtain ⟨_, _, _, h⟩ := rd_bind h
  obtain ⟨_, _, _, h⟩ := rd_bind h
  obtain ⟨_, _, _, h⟩ := rd_bind h
  obtain ⟨_, _, _, h⟩ := rd_bind h
  obtain ⟨_, _, _, h⟩ := rd_bind h
  obtain ⟨_, _, _, h⟩ := rd_bind h
  obtain ⟨_, _, _, h⟩ := rd_bind h
  obtain ⟨_, _, _, h⟩ := rd_bind h
  obtain ⟨_, _, _, h⟩ := rd_bind h
  obtain ⟨_, _, _, h⟩ := rd_bind h
  obtain ⟨_, _, _, h⟩ := rd_bind h
  cases h
  rfl

theorem loadObj_type {x : StoreExt} {d : Disk} {o o' : Obj} {i : Nat} (h : loadObj x d o i = some o') : o'.typ = o.typ := by
  unfold loadObj at h
  obtain ⟨o1, h1, h⟩ := Option.bind_eq_some_iff.mp h
  have hd : o1.typ = o.typ := by
    unfold readFile at h1
    obtain ⟨b, _, h1⟩ := Option.bind_eq_some_iff.mp h1
    obtain ⟨⟨p, rest⟩, h2, rfl⟩ := Option.map_eq_some_iff.mp h1
    exact rdObject_type h2
  split at h
  · cases h
  split at h
  · obtain ⟨_, _, h⟩ := Option.bind_eq_some_iff.mp h
    obtain ⟨_, _, rfl⟩ := Option.map_eq_some_iff.mp h
    exact hd
  · obtain ⟨_, _, rfl⟩ := Option.map_eq_some_iff.mp h
    exact hd

/-- A key type of a new object or of one read is that of a 64-bit number. -/
theorem typ_closed (e : Env) :
    Closed e (fun o => o.typ < 2 ^ 64) (fun _ => True) (fun _ => True) (fun _ => True) (fun _ => True) where
  name := fun _ _ _ _ h => h
  new := fun typ cls b t ht _ _ _ => setAttributeValue_inv (P := fun o => o.typ < 2 ^ 64) _ _ _ _
    (fun p v hp => by obtain ⟨d, z, h⟩ := setKey_frame e.key p v; rw [h]; exact hp)
    (fun p en _ hp => by rw [(setAttr_rest p en).typ]; exact hp) ht
  set := fun o b t _ h => setAttributeValue_inv (P := fun o => o.typ < 2 ^ 64) _ _ _ _
    (fun p v hp => by obtain ⟨d, z, h⟩ := setKey_frame e.key p v; rw [h]; exact hp)
    (fun p en _ hp => by rw [(setAttr_rest p en).typ]; exact hp) h
  copy := fun o t h _ _ => setAttributeValue_inv (P := fun o => o.typ < 2 ^ 64) _ _ _ _
    (fun p v hp => by obtain ⟨d, z, h⟩ := setKey_frame e.key p v; rw [h]; exact hp)
    (fun p en _ hp => by rw [(setAttr_rest p en).typ]; exact hp) h
  enc := fun o k b _ h => by rw [encodeObj_type]; exact h
  dec := fun o k h => by rw [decodeObj_type]; exact h
  sto := fun o k r i _ h => by
    have hv : (storeObj e.store k r o i).obj.typ = o.typ := by
      have := congrArg (fun o : Obj => o.typ) (storeObj_view e.store k r o i)
      exact this
    rw [hv]; exact h
  symm := fun _ _ _ _ h => h
  rsa := fun _ _ _ _ _ h _ => h
  pair := fun _ _ _ _ _ _ _ _ hp hg _ _ _ _ ha hb => by rw [(pairGen_type hp hg).1, (pairGen_type hp hg).2]; exact ⟨ha, hb⟩
  der := fun _ _ _ _ h hd => by rw [deriveTail_type hd]; exact h
  load := fun _ _ _ _ _ ht _ h => by rw [loadObj_type h]; exact ht
  key0 := trivial
  keyH := fun _ _ _ => trivial
  tokFile := fun _ _ _ => trivial
  objFile := fun _ _ _ _ _ _ _ _ => trivial
  delFile := fun _ _ _ _ _ => trivial

/-- The calls of one process as events. -/
theorem live_calls (l : Lib) (cs : List Call) : live e l (cs.map .call) = run e l cs := by
  induction cs generalizing l with
  | nil => rfl
  | cons c cs ih => exact ih _

/-- **C121** for the whole record: within the calls of a process and others started after a
`C_Finalize`, everything that is written to the token's file fits the number of bytes it is given
there, so that reading it back gives the same. This is what C34, C107 and C109 ask of the record. -/
theorem c121_record (hh : HashLen e) (hr : RandLen e) {l₀ : Lib} (h₀ : Start l₀) (hd : NoToken l₀) (cs : List Call)
    (hn : cs.length ≤ 2 ^ 49) (hv : ClockWithin (2 ^ 62) (cs.map .call)) : (run e l₀ cs).token.toRec.Fits := by
  have h := (h₀.countInv (B := 2 ^ 62) (by decide) hd).live hh hr (by decide) (by decide) (cs.map .call) (by simpa using hn) hv
  rw [live_calls, List.length_map] at h
  have hcap := (h₀.capInv hd).run hh hr h₀.sinv cs (e := e)
  have hty := all_run (typ_closed e) (h₀.allObj trivial trivial) cs (fun _ _ _ _ => trivial) (fun _ _ _ _ => trivial)
  refine ⟨h.shape.label, h.so.fits h.shape.so (by decide) (by omega), h.user.fits h.shape.user (by decide) (by omega), h.shape.seed, ?_, ?_⟩
  · have := hcap.pop.tokLen
    show (List.map _ _).length < _
    rw [List.length_map] at *
    omega
  · intro k hk
    obtain ⟨o, ho, rfl⟩ := List.mem_map.mp hk
    exact hty.objs o ho

namespace Demo

/-- The event is no login, or one with the clock in the range. -/
def clockOk : Event → Bool
  | .call (.sess _ (.login _ _ now)) => decide (0 ≤ now ∧ now ≤ 2 ^ 62)
  | _ => true

theorem clockWithin_of {vs : List Event} (h : vs.all clockOk = true) : ClockWithin (2 ^ 62) vs := by
  intro k u pin now hm
  have := List.all_eq_true.mp h _ hm
  exact of_decide_eq_true this

/-- Three wrong PINs lock the user out; a restart; later three more. -/
def wrongAgain : List Event :=
  (setup.map .call) ++ [.call (.sess 65538 .logout)] ++ (List.replicate 3 (.call (loginCall 65538 .user newPin 1000))) ++
  [.call .cFinal, .killed, .call .cInit, .call (openCall true)] ++
  (List.replicate 3 (.call (loginCall 65538 .user newPin 2000)))

end Demo

/-- C121 is not empty: after such a history the counter is at its limit and the timeout is that of
two lockouts. -/
example : ClockWithin (2 ^ 62) Demo.wrongAgain ∧ Demo.wrongAgain.length ≤ 2 ^ 49 ∧
    (live Demo.env Demo.fresh Demo.wrongAgain).token.user.fails = 3 ∧
    (live Demo.env Demo.fresh Demo.wrongAgain).token.user.last = 2000 ∧
    (live Demo.env Demo.fresh Demo.wrongAgain).token.user.timeout = 120 := by
  exact ⟨Demo.clockWithin_of (by decide), by decide, by decide +kernel, by decide +kernel, by decide +kernel⟩

/-- The record of the token with a key fits. -/
example : ClockWithin (2 ^ 62) (Demo.withKey.map .call) ∧ (run Demo.env Demo.fresh Demo.withKey).token.toRec.types.length = 1 := by
  exact ⟨Demo.clockWithin_of (by decide), by decide +kernel⟩

end Verif
