import Verif.Props.Pin
import Verif.Props.Reload
import Verif.Proofs.TokFile
import Verif.Spec.Lives

/-!
# C10, C62: PINs over the lives of several processes
-/

namespace Verif

variable {e : Env}

/-- Every PIN known in the first is the one in the second. -/
def Pins.Sub (q p : Pins) : Prop := ∀ w, q.of w = none ∨ q.of w = p.of w

/-- How the PINs whose hashes are found relate to the PINs that were set: the same, or some
of them lost. -/
def Rel (lost : Prop) (q p : Pins) : Prop := q = p ∨ (lost ∧ q.Sub p)

theorem Rel.refl {lost : Prop} (p : Pins) : Rel lost p p := .inl rfl

theorem Pins.Sub.next {q p : Pins} (h : q.Sub p) (st : Option SState) (c : Call) (r : Resp) :
    (q.next st c r).Sub (p.next st c r) := by
  intro w
  have hw := h w
  unfold Pins.next
  split
  · split
    · exact .inr rfl
    · cases w
      · exact h .so
      · exact .inr rfl
    · split
      · cases w
        · exact .inr rfl
        · exact h .user
      · cases w
        · exact h .so
        · exact .inr rfl
    · exact hw
  · exact hw

theorem Rel.next {lost : Prop} {q p : Pins} (h : Rel lost q p) (st : Option SState) (c : Call) (r : Resp) :
    Rel lost (q.next st c r) (p.next st c r) := by
  rcases h with rfl | ⟨h1, h2⟩
  · exact .refl _
  · exact .inr ⟨h1, h2.next st c r⟩

theorem Rel.none {lost : Prop} (h : lost) (p : Pins) : Rel lost {} p :=
  .inr ⟨h, fun w => .inl (by cases w <;> rfl)⟩

/-- The record holds the hashes of these PINs, and its arrays have the right length. -/
structure RecHolds (e : Env) (r : TokenRec) (q : Pins) : Prop where
  label : r.label.length = 32
  soShape : r.so.Shape
  userShape : r.user.Shape
  seed : r.seed.length = 16
  so : r.so.pin = (q.so.map fun p => e.store.hash p r.so.seed).getD []
  user : r.user.pin = (q.user.map fun p => e.store.hash p r.user.seed).getD []

/-- The PINs in memory and in the token's file. -/
structure PinInv (e : Env) (lost : Prop) (l : Lib) (p : Pins) : Prop where
  mem : 0 < l.count → ∃ q, Rel lost q p ∧ Holds e l q
  file : ∀ b, l.disk (.token, 0) = some b → ∃ r q, b = wrToken r ∧ Rel lost q p ∧ RecHolds e r q
  nofile : l.disk (.token, 0) = none → p = {}
  shape : Shape l.token
  sinv : SInv l
  linv : LInv l

/-- Reading the accounts out of a token's file. -/
theorem rd_accounts {r r' : TokenRec} {q : Pins} {rest : Bytes} (h : RecHolds e r q)
    (hr : rdToken (wrToken r) = some (r', rest)) : r'.so = r.so.stored ∧ r'.user = r.user.stored := by
  have h0 : rdToken (r.label ++ (wrAccount r.so ++ (wrAccount r.user ++ (r.seed ++
      (wrInt r.types.length ++ (r.types.map wrUlong).flatten))))) = some (r', rest) := by
    simpa only [wrToken, List.append_assoc] using hr
  obtain ⟨_, b1, h1, h0⟩ := rd_bind h0
  rw [(ReadsBack.fixed h.label).1] at h1; cases h1
  obtain ⟨_, b2, h2, h0⟩ := rd_bind h0
  rw [(readsBack_acct _ h.soShape).1] at h2; cases h2
  obtain ⟨_, b3, h3, h0⟩ := rd_bind h0
  rw [(readsBack_acct _ h.userShape).1] at h3; cases h3
  obtain ⟨_, b4, h4, h0⟩ := rd_bind h0
  obtain ⟨_, b5, h5, h0⟩ := rd_bind h0
  obtain ⟨_, b6, h6, h0⟩ := rd_bind h0
  cases h0
  exact ⟨rfl, rfl⟩

theorem recHolds_of {l : Lib} {q : Pins} {r : TokenRec} (hs : Shape l.token) (h : Holds e l q) (hr : r.Of l.token) :
    RecHolds e r q := by
  obtain ⟨r1, r2, r3, r4⟩ := hr
  exact ⟨by rw [r1]; exact hs.label, by rw [r2]; exact hs.so, by rw [r3]; exact hs.user, by rw [r4]; exact hs.seed,
    by rw [r2]; exact h.so, by rw [r3]; exact h.user⟩

theorem TFile.case {l l' : Lib} (h : TFile l l') : l'.disk (.token, 0) = l.disk (.token, 0) ∨
    ∃ r : TokenRec, l'.disk (.token, 0) = some (wrToken r) ∧ r.Of l'.token := by
  rcases h.2 with h2 | ⟨r, h2, h3⟩
  · exact .inl h2
  · exact .inr ⟨r, h2, h3.label.trans h.1.label.symm, h3.so.trans h.1.so.symm, h3.user.trans h.1.user.symm,
      h3.seed.trans h.1.seed.symm⟩

/-- What a call does to the token's file: nothing, and then no PIN is set; or it holds the
token as it is then. -/
theorem file_callBody (l : Lib) (c : Call) (hc : c ≠ .cInit) (hf : c ≠ .cFinal) :
    ((callBody e l c).1.disk (.token, 0) = l.disk (.token, 0) ∧
      ∀ (p : Pins) st, p.next st c (callBody e l c).2 = p) ∨
    ∃ r : TokenRec, (callBody e l c).1.disk (.token, 0) = some (wrToken r) ∧ r.Of (callBody e l c).1.token := by
  have store : ∀ m : Lib, ∃ r : TokenRec, (Lib.store e m).1.disk (.token, 0) = some (wrToken r) ∧
      r.Of (Lib.store e m).1.token := fun m => ⟨_, store_token_file e m, rfl, rfl, rfl, rfl⟩
  have refused : ∀ (r : Resp), r.rv ≠ .ok ∧ r.rv ≠ .functionFailed → ∀ (p : Pins) st, p.next st c r = p := by
    intro r hr p st
    unfold Pins.next
    rw [if_neg (by simp [hr])]
  cases c with
  | cInit => exact absurd rfl hc
  | cFinal => exact absurd rfl hf
  | slot id sc =>
    simp only [callBody]
    split; · exact .inl ⟨rfl, refused _ (by simp)⟩
    split; · exact .inl ⟨rfl, refused _ (by simp)⟩
    cases sc with
    | initToken pin lab =>
      simp only [slotCall, initToken]
      split
      · split
        · exact .inl ⟨rfl, refused _ (by simp)⟩
        split
        · exact .inl ⟨rfl, refused _ (by simp)⟩
        split
        · exact .inl ⟨rfl, refused _ (by simp)⟩
        · exact .inr (store _)
      · exact .inl ⟨rfl, refused _ (by simp)⟩
    | tokenInfo =>
      simp only [slotCall]
      split <;> exact .inl ⟨rfl, fun p st => by unfold Pins.next; split <;> rfl⟩
    | closeAll => exact .inl ⟨rfl, fun p st => by unfold Pins.next; split <;> rfl⟩
    | openSession =>
      refine .inl ⟨?_, fun p st => by unfold Pins.next; split <;> rfl⟩
      simp only [slotCall, openSession]
      repeat' split
      all_goals rfl
  | sess k sc =>
    simp only [callBody]
    split; · exact .inl ⟨rfl, refused _ (by simp)⟩
    split; · exact .inl ⟨rfl, refused _ (by simp)⟩
    rename_i t _
    have quiet : ∀ {l' : Lib}, l'.disk = l.disk → (∀ (p : Pins) st (r : Resp), p.next st (.sess k sc) r = p) →
        (l'.disk (.token, 0) = l.disk (.token, 0) ∧ ∀ (p : Pins) st, p.next st (.sess k sc) (sessCall e l t sc).2 = p) ∨
        ∃ r : TokenRec, l'.disk (.token, 0) = some (wrToken r) ∧ r.Of l'.token :=
      fun h h' => .inl ⟨by rw [h], fun p st => h' p st _⟩
    cases sc
    case close =>
      refine quiet ?_ (fun p st r => by unfold Pins.next; split <;> rfl)
      simp only [sessCall, closeSession]
      split <;> rfl
    case login u pin now =>
      refine quiet ?_ (fun p st r => by unfold Pins.next; split <;> rfl)
      simp only [sessCall, login, soLogin, userLogin]
      repeat' split
      all_goals rfl
    case logout => exact quiet rfl (fun p st r => by unfold Pins.next; split <;> rfl)
    case initPin p =>
      simp only [sessCall]
      rcases initPin_spec e l t p with h' | ⟨_, _, _, _, h'⟩
      · exact .inl ⟨by rw [h'.1], refused _ h'.2⟩
      · rw [h']; exact .inr (store _)
    case setPin o n =>
      simp only [sessCall]
      rcases setPin_spec e l t o n with h' | ⟨_, _, _, _, _, _, ⟨_, _, h'⟩ | ⟨_, _, h'⟩⟩
      · exact .inl ⟨by rw [h'.1], refused _ h'.2⟩
      · rw [h']; exact .inr (store _)
      · rw [h']; exact .inr (store _)
    all_goals
      exact (tfile_sessCall e l t _ rfl).case.imp (fun h => ⟨h, fun p st => by unfold Pins.next; split <;> rfl⟩) id

/-- Loading the token. -/
theorem holds_load {lost : Prop} {l : Lib} {p : Pins} (h : PinInv e lost l p) (hr : lost ∨ Readable e l) :
    ∃ q, Rel lost q p ∧ ∀ l' : Lib, l'.token = loadToken e.store l.disk l.uid → Holds e l' q := by
  have empty : ∀ b, ∀ l' : Lib, l'.token = { init := b } → Holds e l' {} := fun b l' hl =>
    ⟨by rw [hl]; rfl, by rw [hl]; rfl, fun hx => by rcases hx with hx | hx <;> exact absurd rfl hx⟩
  unfold loadToken
  cases hf : l.disk (.token, 0) with
  | none =>
    rw [h.nofile hf]
    exact ⟨{}, .refl _, empty false⟩
  | some b =>
    obtain ⟨r, q, rfl, hq, hh⟩ := h.file b hf
    dsimp only
    split
    · rename_i hrd
      refine ⟨{}, .none ?_ _, empty true⟩
      rcases hr with hr | hr
      · exact hr
      · rcases hr with hr | ⟨b, r', rest, os, h1, h2, _⟩
        · rw [hf] at hr; cases hr
        · rw [hf] at h1; cases h1; rw [hrd] at h2; cases h2
    · rename_i r' rest hrd
      split
      · rename_i hos
        refine ⟨{}, .none ?_ _, empty true⟩
        rcases hr with hr | hr
        · exact hr
        · rcases hr with hr | ⟨b, r'', rest', os, h1, h2, h3⟩
          · rw [hf] at hr; cases hr
          · rw [hf] at h1; cases h1; rw [hrd] at h2; cases h2; rw [hos] at h3; cases h3
      · obtain ⟨h1, h2⟩ := rd_accounts hh hrd
        refine ⟨q, hq, fun l' hl => ⟨?_, ?_, fun _ => by rw [hl]⟩⟩
        · rw [hl]; show r'.so.pin = (q.so.map fun p => e.store.hash p r'.so.seed).getD []
          rw [h1]; exact hh.so
        · rw [hl]; show r'.user.pin = (q.user.map fun p => e.store.hash p r'.user.seed).getD []
          rw [h2]; exact hh.user

theorem PinInv.call (hh : HashLen e) (hrl : RandLen e) {lost : Prop} {l : Lib} {p : Pins} (hb : l.bad = false)
    (h : PinInv e lost l p) (c : Call) (hr : c = .cInit → lost ∨ Readable e l) (hb' : (step e l c).1.bad = false) :
    PinInv e lost (step e l c).1 (p.next (stateOf e l c.session) c (answer e l c)) := by
  have hst := step_sessions (e := e) hb c
  have hsinv := h.sinv.step e c
  have hlinv := h.linv.step e c
  have hshape : Shape (step e l c).1.token := by rw [hst.2.2.1]; exact shape_callBody hh hrl h.shape c
  by_cases h1 : c = .cInit
  · subst h1
    have hp : p.next (stateOf e l (Call.cInit).session) .cInit (answer e l .cInit) = p := by
      unfold Pins.next; split <;> rfl
    rw [hp]
    have hd : (step e l .cInit).1.disk = l.disk := by
      rw [hst.2.2.2]; simp only [callBody, cInitialize]; split <;> rfl
    refine ⟨fun hc => ?_, by rw [hd]; exact h.file, by rw [hd]; exact h.nofile, hshape, hsinv, hlinv⟩
    rw [hst.2.1] at hc
    simp only [callBody, cInitialize] at hc
    by_cases h0 : l.count = 0
    · obtain ⟨q, hq, hl⟩ := holds_load h (hr rfl)
      refine ⟨q, hq, hl _ ?_⟩
      rw [hst.2.2.1]
      simp only [callBody, cInitialize, if_pos h0]
    · rw [if_neg h0] at hc
      obtain ⟨q, hq, hl⟩ := h.mem (by omega)
      have ht : (step e l .cInit).1.token = l.token := by
        rw [hst.2.2.1]; simp only [callBody, cInitialize, if_neg h0]
      exact ⟨q, hq, by rw [ht]; exact hl.so, by rw [ht]; exact hl.user, by rw [ht]; exact hl.init⟩
  by_cases h2 : c = .cFinal
  · subst h2
    have hp : p.next (stateOf e l (Call.cFinal).session) .cFinal (answer e l .cFinal) = p := by
      unfold Pins.next; split <;> rfl
    rw [hp]
    by_cases h0 : l.count - 1 = 0
    · obtain ⟨q, hq, hl⟩ := h.mem (by omega)
      have hd : (step e l .cFinal).1.disk (.token, 0) = some (wrToken l.token.toRec) := by
        rw [hst.2.2.2]
        simp only [callBody, cFinalize, if_pos h0]
        exact store_token_file e { l with count := l.count - 1 }
      refine ⟨fun hc => ?_, fun b hx => ?_, fun hx => ?_, hshape, hsinv, hlinv⟩
      · rw [hst.2.1] at hc
        simp only [callBody, cFinalize, if_pos h0] at hc
        exact absurd hc (by show ¬ 0 < l.count - 1; omega)
      · rw [hd] at hx; cases hx
        exact ⟨_, q, rfl, hq, recHolds_of h.shape hl (.toRec _)⟩
      · rw [hd] at hx; cases hx
    · have ht : (step e l .cFinal).1.token = l.token := by
        rw [hst.2.2.1]; simp only [callBody, cFinalize, if_neg h0]
      have hd : (step e l .cFinal).1.disk = l.disk := by
        rw [hst.2.2.2]; simp only [callBody, cFinalize, if_neg h0]
      refine ⟨fun hc => ?_, by rw [hd]; exact h.file, by rw [hd]; exact h.nofile, hshape, hsinv, hlinv⟩
      rw [hst.2.1] at hc
      simp only [callBody, cFinalize, if_neg h0] at hc
      obtain ⟨q, hq, hl⟩ := h.mem (by omega)
      exact ⟨q, hq, by rw [ht]; exact hl.so, by rw [ht]; exact hl.user, by rw [ht]; exact hl.init⟩
  have hcount : (step e l c).1.count = l.count := by
    rw [hst.2.1, callBody_count]
    cases c <;> first | rfl | contradiction | skip
  have hans : answer e l c = (callBody e l c).2 := step_resp hb c
  have hmem : 0 < (step e l c).1.count →
      ∃ q, Rel lost q (p.next (stateOf e l c.session) c (answer e l c)) ∧ Holds e (step e l c).1 q := by
    intro hc
    obtain ⟨q, hq, hl⟩ := h.mem (by omega)
    exact ⟨_, hq.next _ _ _, holds_step h.sinv h.linv hl c ((initialised_iff hb).mpr (by omega)) ((initialised_iff hb').mpr hc)⟩
  by_cases hpos : 0 < l.count
  · obtain ⟨q, hq, hl⟩ := hmem (by omega)
    rcases file_callBody (e := e) l c h1 h2 with ⟨hd, hn⟩ | ⟨r, hd, ho⟩
    · rw [← hst.2.2.2] at hd
      have hp : p.next (stateOf e l c.session) c (answer e l c) = p := by rw [hans]; exact hn p _
      refine ⟨hmem, ?_, ?_, hshape, hsinv, hlinv⟩
      · rw [hd, hp]; exact h.file
      · rw [hd, hp]; exact h.nofile
    · rw [← hst.2.2.2] at hd
      rw [← hst.2.2.1] at ho
      refine ⟨hmem, fun b hx => ?_, fun hx => ?_, hshape, hsinv, hlinv⟩
      · rw [hd] at hx; cases hx
        exact ⟨r, q, rfl, hq, recHolds_of hshape hl ho⟩
      · rw [hd] at hx; cases hx
  · have hcl : (callBody e l c) = (l, { rv := .cryptokiNotInitialized }) := by
      have : l.count ≤ 0 := by omega
      cases c with
      | cInit => exact absurd rfl h1
      | cFinal => exact absurd rfl h2
      | slot id sc => simp only [callBody, if_pos this]
      | sess k sc => simp only [callBody, if_pos this]
    have hp : p.next (stateOf e l c.session) c (answer e l c) = p := by
      rw [hans, hcl]; unfold Pins.next; rw [if_neg (by simp)]
    have hd : (step e l c).1.disk = l.disk := by rw [hst.2.2.2, hcl]
    rw [hp]
    exact ⟨fun hc => absurd hc (by omega), by rw [hd]; exact h.file, by rw [hd]; exact h.nofile, hshape, hsinv, hlinv⟩

theorem startOn_start {l : Lib} (hb : l.bad = false) : Start { startOn l l.disk with bad := l.bad } := ⟨rfl, rfl, rfl, hb⟩

theorem PinInv.event (hh : HashLen e) (hrl : RandLen e) {lost : Prop} {l : Lib} {p : Pins} (hb : l.bad = false)
    (h : PinInv e lost l p) (v : Event) (hr : v = .call .cInit → lost ∨ Readable e l) (hb' : (v.next e l).bad = false) :
    PinInv e lost (v.next e l) (p.event e l v) := by
  cases v with
  | call c => exact h.call hh hrl hb c (fun hc => hr (by rw [hc])) hb'
  | killed =>
    have hs := startOn_start hb
    exact ⟨fun hc => absurd hc (by show ¬ (0 : Int) < 0; omega), h.file, h.nofile, .default, hs.sinv, hs.linv⟩

theorem bad_next {l : Lib} (hb : l.bad = true) (v : Event) : (v.next e l).bad = true := by
  cases v with
  | call c => show (step e l c).1.bad = true; rw [step_bad hb]; exact hb
  | killed => exact hb

theorem bad_live {l : Lib} (hb : l.bad = true) (vs : List Event) : (live e l vs).bad = true := by
  induction vs generalizing l with
  | nil => exact hb
  | cons v vs ih => exact ih (bad_next hb v)

theorem PinInv.live (hh : HashLen e) (hrl : RandLen e) {lost : Prop} {l : Lib} {p : Pins} (hb : l.bad = false)
    (h : PinInv e lost l p) (vs : List Event) (hr : lost ∨ AlwaysReadable e l vs) (hb' : (live e l vs).bad = false) :
    PinInv e lost (live e l vs) (pinsLive e l p vs) := by
  induction vs generalizing l p with
  | nil => exact h
  | cons v vs ih =>
    have hb1 : (v.next e l).bad = false := by
      cases hx : (v.next e l).bad with
      | false => rfl
      | true => rw [show Verif.live e l (v :: vs) = Verif.live e (v.next e l) vs from rfl, bad_live hx] at hb'; cases hb'
    exact ih hb1 (h.event hh hrl hb v (fun hv => hr.imp id (fun h => h.1 hv)) hb1) (hr.imp id (·.2)) hb'

theorem Start.pinInv {lost : Prop} {l : Lib} (h : Start l) (hd : NoToken l) : PinInv e lost l {} where
  mem hc := by rw [h.count] at hc; omega
  file b hb := by rw [hd] at hb; cases hb
  nofile _ := rfl
  shape := by rw [h.token]; exact .default
  sinv := h.sinv
  linv := h.linv

/-- Every state is one of the last process. -/
theorem live_run {l₀ : Lib} (h₀ : Start l₀) (vs : List Event) (hb : (live e l₀ vs).bad = false) :
    ∃ l₁ cs, Start l₁ ∧ live e l₀ vs = run e l₁ cs := by
  suffices h : ∀ (l₁ : Lib) (cs : List Call), Start l₁ → (live e (run e l₁ cs) vs).bad = false →
      ∃ l₂ ds, Start l₂ ∧ live e (run e l₁ cs) vs = run e l₂ ds from h l₀ [] h₀ hb
  clear h₀ hb
  induction vs with
  | nil => intro l₁ cs h _; exact ⟨l₁, cs, h, rfl⟩
  | cons v vs ih =>
    intro l₁ cs h hb
    cases v with
    | call c =>
      have : (step e (run e l₁ cs) c).1 = run e l₁ (cs ++ [c]) := by rw [run_append]; rfl
      have hl : live e (run e l₁ cs) (.call c :: vs) = live e (run e l₁ (cs ++ [c])) vs := by
        show live e (step e (run e l₁ cs) c).1 vs = _
        rw [this]
      rw [hl] at hb ⊢
      exact ih l₁ _ h hb
    | killed =>
      cases hx : (run e l₁ cs).bad with
      | false => exact ih _ [] (startOn_start hx) hb
      | true => rw [bad_live hx] at hb; cases hb

/-- C10, every history of several processes on a directory, whatever files are lost or
unreadable: login succeeds only with the PIN most recently set, and only if nobody is
logged in, the account is not locked, and (security officer) no session is read-only,
(user) the objects can be decrypted. -/
theorem c10_only (hh : HashLen e) (hrl : RandLen e) {l₀ : Lib} (h₀ : Start l₀) (hd : NoToken l₀)
    (vs : List Event) (h : Nat) (w : Who) (pin : Bytes) (now : Int) :
    let l := live e l₀ vs
    let p := pinsLive e l₀ {} vs
    NoCollision e p w pin → (answer e l (loginCall h w pin now)).rv = .ok →
    IsOpen e l h ∧ 4 ≤ pin.length ∧ pin.length ≤ 32 ∧ p.of w = some pin ∧ NobodyLoggedIn e l h ∧
    ¬ Locked (w.acct l.token) now ∧ (w = .so → ∀ k, ¬ OpenAs e l k false) ∧
    (w = .user → Decodable e l pin) := by
  intro l p hnc hok
  cases hb : l.bad with
  | true => rw [answer, step_bad hb] at hok; cases hok
  | false =>
    have hinv : PinInv e True l p := (h₀.pinInv hd).live hh hrl h₀.bad vs (.inl trivial) hb
    obtain ⟨l₁, cs, h₁, hl⟩ := live_run h₀ vs hb
    have hlr : l = run e l₁ cs := hl
    have hpos : 0 < l.count := by
      apply Classical.byContradiction
      intro hx
      rw [answer, step_resp hb] at hok
      simp only [loginCall, callBody, if_pos (show l.count ≤ 0 by omega)] at hok
      cases hok
    obtain ⟨q, hq, hh'⟩ := hinv.mem hpos
    have hsub : q.of w = none ∨ q.of w = p.of w := by
      rcases hq with rfl | ⟨_, hq⟩
      · exact .inr rfl
      · exact hq w
    have hnc' : NoCollision e q w pin := by
      intro a s ha
      rcases hsub with h' | h'
      · rw [h'] at ha; cases ha
      · exact hnc a s (by rw [← h']; exact ha)
    have := (c10_from e hh h₁ cs q [] h w pin now (by rw [← hlr]; exact hh')
      (by rw [← hlr]; exact (initialised_iff hb).mpr hpos) hnc').mp (by
        show (answer e (run e l₁ cs) _).rv = _
        rw [← hlr]; exact hok)
    rw [show run e (run e l₁ cs) [] = l from hlr.symm] at this
    obtain ⟨g1, g2, g3, g4, g5⟩ := this
    have g4 : q.of w = some pin := g4
    refine ⟨g1, g2, g3, ?_, g5⟩
    rcases hsub with h' | h'
    · rw [h'] at g4; cases g4
    · rw [← h']; exact g4

/-- C10, exactly: if the files could be read whenever a process initialised the library. -/
theorem c10_exactly (hh : HashLen e) (hrl : RandLen e) {l₀ : Lib} (h₀ : Start l₀) (hd : NoToken l₀)
    (vs : List Event) (h : Nat) (w : Who) (pin : Bytes) (now : Int) :
    let l := live e l₀ vs
    let p := pinsLive e l₀ {} vs
    AlwaysReadable e l₀ vs → NoCollision e p w pin →
    ((answer e l (loginCall h w pin now)).rv = .ok ↔
      IsOpen e l h ∧ 4 ≤ pin.length ∧ pin.length ≤ 32 ∧ p.of w = some pin ∧ NobodyLoggedIn e l h ∧
      ¬ Locked (w.acct l.token) now ∧ (w = .so → ∀ k, ¬ OpenAs e l k false) ∧
      (w = .user → Decodable e l pin)) := by
  intro l p hrd hnc
  cases hb : l.bad with
  | true =>
    constructor
    · intro hok; rw [answer, step_bad hb] at hok; cases hok
    · intro hx
      have := hx.1
      rw [IsOpen, sessionInfo, answer, step_bad hb] at this
      cases this
  | false =>
    have hinv : PinInv e False l p := (h₀.pinInv hd).live hh hrl h₀.bad vs (.inr hrd) hb
    obtain ⟨l₁, cs, h₁, hl⟩ := live_run h₀ vs hb
    have hlr : l = run e l₁ cs := hl
    by_cases hpos : 0 < l.count
    · obtain ⟨q, hq, hh'⟩ := hinv.mem hpos
      have hq : q = p := hq.resolve_right (fun h => h.1)
      subst hq
      have := c10_from e hh h₁ cs p [] h w pin now (by rw [← hlr]; exact hh')
        (by rw [← hlr]; exact (initialised_iff hb).mpr hpos) hnc
      rw [show run e (run e l₁ cs) [] = l from hlr.symm] at this
      exact this
    · constructor
      · intro hok
        rw [answer, step_resp hb] at hok
        simp only [loginCall, callBody, if_pos (show l.count ≤ 0 by omega)] at hok
        cases hok
      · intro hx
        have := hx.1
        rw [IsOpen, sessionInfo, answer, step_resp hb] at this
        simp only [callBody, if_pos (show l.count ≤ 0 by omega)] at this
        cases this

/-- C62, every history of several processes: `CKF_USER_PIN_INITIALIZED` is reported only if a
user PIN is set, and always then if the files could be read. -/
theorem c62_lives (hh : HashLen e) (hrl : RandLen e) {l₀ : Lib} (h₀ : Start l₀) (hd : NoToken l₀)
    (vs : List Event) (now : Int) (i : TokInfo) :
    let l := live e l₀ vs
    let p := pinsLive e l₀ {} vs
    (answer e l (.slot 1 (.tokenInfo true now))).info = some i →
    (i.userPinInit = true → p.user ≠ none) ∧
    (AlwaysReadable e l₀ vs → p.user ≠ none → i.userPinInit = true) := by
  intro l p hi
  have hb : l.bad = false := by
    cases hb : l.bad with
    | false => rfl
    | true => rw [answer, step_bad hb] at hi; cases hi
  have hpos : 0 < l.count := by
    apply Classical.byContradiction
    intro hx
    rw [answer, step_resp hb] at hi
    simp only [callBody, if_pos (show l.count ≤ 0 by omega)] at hi
    cases hi
  obtain ⟨l₁, cs, h₁, hl⟩ := live_run h₀ vs hb
  have hlr : l = run e l₁ cs := hl
  obtain ⟨j, hj, _, hu, _⟩ := c62_flags e h₁ cs now (by rw [← hlr]; exact (initialised_iff hb).mpr hpos)
  rw [← hlr] at hj hu
  rw [hi] at hj
  cases hj
  have hset : ∀ {lost : Prop} {q : Pins}, Rel lost q p → Holds e l q → (l.token.user.pin ≠ [] ↔ q.user ≠ none) := by
    intro lost q _ hq
    rw [hq.user]
    cases q.user with
    | none => simp
    | some q => simpa using hash_ne_nil hh _ _
  constructor
  · intro hx
    obtain ⟨q, hq, hh'⟩ := ((h₀.pinInv hd).live hh hrl h₀.bad vs (.inl trivial) hb : PinInv e True l p).mem hpos
    have := (hset hq hh').mp (hu.mp hx)
    rcases hq with rfl | ⟨_, hq⟩
    · exact this
    · rcases hq .user with h' | h'
      · exact absurd h' this
      · exact fun hp => this (h'.trans hp)
  · intro hrd hx
    obtain ⟨q, hq, hh'⟩ := ((h₀.pinInv hd).live hh hrl h₀.bad vs (.inr hrd) hb : PinInv e False l p).mem hpos
    have hq' : q = p := hq.resolve_right (fun h => h.1)
    subst hq'
    exact hu.mpr ((hset hq hh').mpr hx)

/-- The files are readable after `C_Finalize` if all objects of the token are keys stored as
they are. -/
theorem readable_final (hx : StoreLaws e.store) {l₀ : Lib} (h₀ : Start l₀) (cs : List Call) :
    let l := run e l₀ cs
    l.bad = false → inits cs = finals cs + 1 → l.token.toRec.Fits → (∀ o ∈ tokenObjs l, o.Storable) →
    Readable e (step e l .cFinal).1 := by
  intro l hb hn hf ho
  have hc : l.count = 1 := by
    have : l.count = _ := run_count hb
    rw [this, h₀.count]; omega
  have hst := step_sessions (e := e) hb .cFinal
  have hd : (step e l .cFinal).1.disk = l.disk.puts (storeToken e.store l.rng l.token).wr := by
    rw [hst.2.2.2]
    simp only [callBody, cFinalize, hc]
    rfl
  have hrd := (c33_token _ hf).1 []
  rw [List.append_nil] at hrd
  have hlo := loadObjs_reloaded (key := l.token.key) hx ho l.rng (step e l .cFinal).1.uid
    (l.disk.put ((.token, 0), wrToken l.token.toRec))
  refine .inr ⟨wrToken l.token.toRec, l.token.toRec, [], reloadAll (step e l .cFinal).1.uid l.token.objs, ?_, hrd, ?_⟩
  · rw [hst.2.2.2]
    simp only [callBody, cFinalize, hc]
    exact store_token_file e { l with count := _ }
  · rw [hd]; exact hlo

/-! ## Non-vacuity: a key is made, the library finalised, a second process is killed, and the
user logs in in a third one. -/

namespace Demo

/-- The events. -/
def threeLives : List Event :=
  (withKey ++ [Call.cFinal]).map .call ++ [.killed] ++ [Call.cInit, openCall true].map .call ++ [.killed] ++
    [Call.cInit, openCall true].map .call

set_option maxRecDepth 20000 in
example : (pinsLive env fresh {} threeLives) = { so := some soPin, user := some userPin } ∧
    (answer env (live env fresh threeLives) (loginCall 65538 .user userPin 0)).rv = .ok ∧
    (answer env (live env fresh threeLives) (loginCall 65538 .user [9, 9, 9, 9] 0)).rv = .pinIncorrect ∧
    (tokenObjs (live env fresh threeLives)).length = 1 := by decide

set_option maxRecDepth 20000 in
example : AlwaysReadable env fresh threeLives := by
  simp only [threeLives, withKey, setup, List.map_append, List.map_cons, List.map_nil, List.append_assoc, List.cons_append,
    List.nil_append, AlwaysReadable]
  simp only [Event.call.injEq, reduceCtorEq, false_implies, true_and, and_true, openCall, createCall, true_implies]
  refine ⟨?_, ?_, ?_⟩
  all_goals decide

end Demo

end Verif
