import Verif.Spec.Begun
import Verif.Props.Ops
import Verif.Props.Wrap
import Verif.Props.Sess
import Verif.Props.SessClose
import Verif.Proofs.Fit

/-!
# C53 for histories of the whole interface; C95
-/

namespace Verif

variable {e : Env}

/-- Handle, mode, operation and current key of a session. -/
def Session.opCurr (s : Session) : Nat × Use × OpSt × Option Nat := (s.handle, s.use, s.op, s.curr)

theorem getSession_opCurr {l l' : Lib} (h : SameAt Session.opCurr l l') (k : Nat) :
    (getSession l' k).map Session.opCurr = (getSession l k).map Session.opCurr := by
  unfold SameAt at h
  unfold getSession
  split
  · rfl
  generalize l.sessions = a at h ⊢
  generalize l'.sessions = b at h ⊢
  induction a generalizing b with
  | nil => cases b with
    | nil => rfl
    | cons y b => simp at h
  | cons x a ih => cases b with
    | nil => simp at h
    | cons y b =>
      simp only [List.map_cons, List.cons.injEq] at h
      obtain ⟨h1, h2⟩ := h
      have hh : y.handle = x.handle := congrArg (·.1) h1
      have hu : y.use = x.use := congrArg (·.2.1) h1
      rw [List.find?_cons, List.find?_cons, hh]
      by_cases hx : x.handle = k
      · simp only [hx, beq_self_eq_true, Option.bind_some, hu]
        split
        · rfl
        · simp only [Option.map_some, h1]
      · simp only [beq_eq_false_iff_ne.mpr hx]
        exact ih b h2

/-- What a call does to the operation of an open session. -/
inductive OpStep (e : Env) (l : Lib) (c : Call) (h : Nat) (s' : Session) : Prop where
  | same (s : Session) (hs : getSession l h = some s) (hc : s'.curr = s.curr) (hm : s'.op.mech = s.op.mech)
      (hi : s'.op.init.kind = s.op.init.kind ∨ s'.op.init.kind = none)
      (hn : ∀ k m p key, c = .sess h (.cryptInit k (some (m, p)) key) → (answer e l c).rv ≠ .ok)
  | fresh (hs : getSession l h = none) (hc : s'.curr = none) (hn : ∀ k m p key, c ≠ .sess h (.cryptInit k (some (m, p)) key))
  | init (k : Kind) (m : Mech) (p : MechParam) (key : Nat) (hc : c = .sess h (.cryptInit k (some (m, p)) key))
      (hok : (answer e l c).rv = .ok) (hm : s'.op.mech = m) (hk : s'.op.init.kind = some k)
  | wrap (hw : WrapsIn h c)

theorem opStep {l : Lib} (hi : SInv l) (c : Call) (h : Nat) (hg : (step e l c).1.bad = false) {s' : Session}
    (hs' : getSession (step e l c).1 h = some s') : OpStep e l c h s' := by
  obtain ⟨hb, hub, hst⟩ := step_good hg
  have hi' : SInv (step e l c).1 := hi.step e c
  have keep : getSession (step e l c).1 h = getSession l h → (∀ k m p key, c ≠ .sess h (.cryptInit k (some (m, p)) key)) →
      OpStep e l c h s' := by
    intro h1 h2
    rw [h1] at hs'
    exact .same s' hs' rfl rfl (.inl rfl) (fun k m p key hc => absurd hc (h2 k m p key))
  have keepS : (callBody e l c).1.sessions = l.sessions → (∀ k m p key, c ≠ .sess h (.cryptInit k (some (m, p)) key)) →
      OpStep e l c h s' := by
    intro h1 h2
    refine keep ?_ h2
    rw [hst]; unfold getSession; rw [h1]
  cases c with
  | cInit =>
    by_cases h0 : l.count = 0
    · -- new sessions, none of them open
      exfalso
      rw [hst] at hs'
      obtain ⟨hm, _, hu⟩ := (getSession_iff (hst ▸ hi')).mp hs'
      simp only [callBody, cInitialize, h0, if_true, addSession, List.mem_cons, List.not_mem_nil, or_false] at hm
      rcases hm with rfl | rfl <;> exact hu rfl
    · refine keepS ?_ (fun _ _ _ _ hc => by cases hc)
      simp [callBody, cInitialize, h0]
  | cFinal =>
    by_cases h0 : l.count - 1 = 0
    · exfalso
      rw [hst] at hs'
      obtain ⟨hm, _, _⟩ := (getSession_iff (hst ▸ hi')).mp hs'
      simp only [callBody, cFinalize, h0, if_true] at hm
      cases hm
    · refine keepS ?_ (fun _ _ _ _ hc => by cases hc)
      simp [callBody, cFinalize, h0]
  | slot id c =>
    have hne : ∀ k m p key, Call.slot id c ≠ .sess h (.cryptInit k (some (m, p)) key) := fun _ _ _ _ hc => by cases hc
    by_cases hc0 : l.count ≤ 0
    · exact keepS (by simp [callBody, hc0]) hne
    by_cases hid : id = 1
    case neg => exact keepS (by simp [callBody, hc0, hid]) hne
    subst hid
    cases c with
    | tokenInfo p n => exact keepS (by simp only [callBody, if_neg hc0, slotCall]; repeat' split
                                       all_goals first | rfl | simp_all) hne
    | initToken p n =>
      refine keepS ?_ hne
      simp only [callBody, if_neg hc0, slotCall, initToken]
      repeat' split
      all_goals first | rfl | simp_all
    | openSession rw' serial ptr =>
      by_cases hss : serial = true
      case neg => exact keepS (by simp [callBody, hc0, slotCall, hss]) hne
      by_cases hpp : ptr = true
      case neg => exact keepS (by simp [callBody, hc0, slotCall, hss, hpp]) hne
      subst hss hpp
      obtain ⟨_, hcase⟩ := openSession_spec (e := e) hi hb (by omega) rw'
      change _ ∨ _ at hcase
      have hstep : step e l (openCall rw') = step e l (.slot 1 (.openSession rw' true true)) := rfl
      rcases hcase with ⟨_, _, h3⟩ | ⟨_, _, _, h3⟩ | ⟨_, _, h', h3, h4, ⟨s, h5, _, _, h6⟩, h7, _⟩
      · exact keep (by rw [← hstep, h3]) hne
      · exact keep (by rw [← hstep, h3]) hne
      · by_cases hh : h = h'
        · subst hh
          rw [← hstep, h5] at hs'
          cases hs'
          exact .fresh h4 h6 hne
        · exact keep (h7 h hh) hne
    | closeAll =>
      obtain ⟨n, h2, h70, hh⟩ : ∃ n, 2 ≤ n ∧ n ≤ 70 ∧ handles l.sessions = down n := by
        rcases hi.shape with ⟨h1, _⟩ | ⟨_, h2⟩
        · exact absurd h1 hc0
        · exact h2
      obtain ⟨s2, s1, m2, m1, e2, e1, hcl⟩ := closeAll_spec h2 h70 hh
      have hl' : (step e l (.slot 1 .closeAll)).1 = { l with sessions := closeAll l.sessions } := by
        have := closeAll_step (e := e) hi hb (by omega : 0 < l.count)
        show (step e l closeAllCall).1 = _
        rw [this]
      refine .same s' ?_ rfl rfl (.inl rfl) (fun k m p key hc => absurd hc (hne k m p key))
      obtain ⟨hm, he, hu⟩ := (getSession_iff hi').mp hs'
      rw [hl'] at hm
      dsimp only at hm
      rw [hcl] at hm
      simp only [List.mem_cons, List.not_mem_nil, or_false] at hm
      rw [getSession_iff hi]
      rcases hm with rfl | rfl
      · exact absurd (sessFinal_use s2) hu
      · exact ⟨m1, he, hu⟩
  | sess j c =>
    by_cases hc0 : l.count ≤ 0
    · rw [hst] at hs'
      simp only [callBody, if_pos hc0] at hs'
      refine .same s' hs' rfl rfl (.inl rfl) ?_
      intro k m p key hc hok
      unfold answer at hok
      rw [hst] at hok
      simp only [callBody, if_pos hc0] at hok
      cases hok
    cases hj : getSession l j with
    | none =>
      rw [hst] at hs'
      simp only [callBody, if_neg hc0, hj] at hs'
      refine .same s' hs' rfl rfl (.inl rfl) ?_
      intro k m p key hc hok
      unfold answer at hok
      rw [hst] at hok
      simp only [callBody, if_neg hc0, hj] at hok
      cases hok
    | some s =>
      have hbody : callBody e l (.sess j c) = sessCall e l s c := by simp only [callBody, if_neg hc0, hj]
      obtain ⟨hsj, hsu, hsm⟩ := getSession_handle hj
      by_cases hcl : c = .close
      · subst hcl
        have ho : IsOpen e l j := (isOpen_iff hi).mpr ⟨hb, s, hj⟩
        obtain ⟨_, _, h3, h4, _⟩ := close_spec (e := e) hi ho
        by_cases hhj : h = j
        · subst hhj
          rw [show step e l (.sess h .close) = step e l (closeCall h) from rfl, h3] at hs'
          cases hs'
        · exact keep (h4 h hhj) (fun _ _ _ _ hc => by cases hc)
      by_cases hhj : h = j
      case neg =>
        refine keep ?_ (fun k m p key hc => by cases hc; exact hhj rfl)
        rw [hst, hbody]
        have := frame_sessCall e l s c hcl
        exact this.getSession_ne (by rw [hsj]; exact hhj)
      subst hhj
      by_cases hw : c.Wraps
      · exact .wrap ⟨rfl, hw⟩
      -- the session itself
      have hgupd : ∀ f : Session → Session, (∀ t, (f t).handle = t.handle ∧ (f t).use = t.use) →
          getSession (l.upd s.handle f) h = some (f s) := by
        intro f hf
        rw [hsj]
        unfold getSession at hj ⊢
        split at hj
        · cases hj
        rename_i hd
        rw [if_neg hd]
        obtain ⟨t, ht, ht'⟩ := Option.bind_eq_some_iff.mp hj
        split at ht'
        · cases ht'
        rename_i hun
        cases ht'
        unfold Lib.upd
        dsimp only
        rw [find_map_eq (fun t => (hf t).1), ht]
        simp [(hf _).2, hun]
      by_cases hd : ∃ d, c = .crypt d
      · obtain ⟨d, rfl⟩ := hd
        rw [hst, hbody] at hs'
        simp only [sessCall, cCrypt] at hs'
        refine .same s hj ?_ ?_ ?_ (fun _ _ _ _ hc => by cases hc)
        all_goals
          revert hs'
          cases currKey l s with
          | null =>
            dsimp only
            intro hs'
            rw [hgupd] at hs'
            case a => exact fun _ => ⟨rfl, rfl⟩
            cases hs'
            obtain ⟨h1, h2⟩ := run_keeps e.crypto s.op none d
            first | rfl | exact h1 | exact h2.imp (congrArg _) (fun h => by rw [h]; rfl)
          | obj o =>
            dsimp only
            intro hs'
            rw [hgupd] at hs'
            case a => exact fun _ => ⟨rfl, rfl⟩
            cases hs'
            obtain ⟨h1, h2⟩ := run_keeps e.crypto s.op (some o) d
            first | rfl | exact h1 | exact h2.imp (congrArg _) (fun h => by rw [h]; rfl)
          | freed =>
            dsimp only
            intro hs'
            split at hs'
            all_goals
              rw [hj] at hs'
              cases hs'
              first | rfl | exact .inl rfl
      by_cases hci : ∃ k m key, c = .cryptInit k m key
      · obtain ⟨k, m, key, rfl⟩ := hci
        have hans : answer e l (.sess h (.cryptInit k m key)) = (cCryptInit e l s k m key).2 := by
          unfold answer; rw [hst, hbody]; rfl
        rw [hst, hbody] at hs'
        have hub : (cCryptInit e l s k m key).2.rv ≠ .ub := by rw [hbody] at hub; exact hub
        simp only [sessCall] at hs'
        have refused : (cCryptInit e l s k m key).1 = l → (cCryptInit e l s k m key).2.rv ≠ .ok →
            OpStep e l (.sess h (.cryptInit k m key)) h s' := by
          intro h1 h2
          rw [h1, hj] at hs'
          cases hs'
          refine .same s' hj rfl rfl (.inl rfl) (fun _ _ _ _ _ => ?_)
          rw [hans]; exact h2
        cases m with
        | none => exact refused rfl (by simp [cCryptInit])
        | some mp =>
          obtain ⟨m, p⟩ := mp
          cases hf : findObj l s key with
          | none => exact refused (by simp [cCryptInit, hf]) (by simp [cCryptInit, hf])
          | some o =>
            simp only [cCryptInit, hf] at hs' hans hub
            by_cases hce : (initCall e.crypto k s.op o m p).2 = .ok ∧ o.cls = CKO_CERTIFICATE
            · rw [if_pos hce] at hub; exact absurd rfl hub
            rw [if_neg hce] at hs' hans
            dsimp only at hs'
            rw [hgupd] at hs'
            case a => exact fun _ => ⟨rfl, rfl⟩
            cases hs'
            by_cases hok : (initCall e.crypto k s.op o m p).2 = .ok
            · obtain ⟨h1, h2⟩ := initCall_ok (x := e.crypto) (k := k) (s := s.op) (o := o) (m := m) (p := p)
                (s' := (initCall e.crypto k s.op o m p).1) (by rw [← hok])
              exact .init k m p key rfl (by rw [hans]; exact hok) h1 h2
            · obtain ⟨h1, h2⟩ := initCall_fail hok
              refine .same s hj (if_neg hok) h1 (.inl h2) (fun _ _ _ _ _ => ?_)
              rw [hans]; exact hok
      · have hsame : SameAt Session.opCurr l (sessCall e l s c).1 := by
          by_cases hfd : (∃ t, c = .findInit t) ∨ (∃ p n, c = .findNext p n) ∨ c = .findFinal
          · rcases hfd with ⟨t, rfl⟩ | ⟨p, n, rfl⟩ | rfl
            · simp only [sessCall, cFindInit]
              repeat' split
              all_goals first | exact .of rfl | exact .upd (fun _ => rfl)
            · simp only [sessCall, cFindNext]
              repeat' split
              all_goals first | exact .of rfl | exact .upd (fun _ => rfl)
            · exact .upd (fun _ => rfl)
          · refine same_objs (fun _ _ => rfl) s c hcl (fun t ht => hfd (.inl ⟨t, ht⟩)) (fun p n ht => hfd (.inr (.inl ⟨p, n, ht⟩)))
              (fun ht => hfd (.inr (.inr ht))) (fun k m o ht => hci ⟨k, m, o, ht⟩) (fun d ht => hd ⟨d, ht⟩) ?_ ?_
            · rintro m a b o rfl; exact hw trivial
            · rintro m a b t p rfl; exact hw trivial
        have h1 := getSession_opCurr hsame h
        rw [hst, hbody] at hs'
        rw [hs', hj] at h1
        simp only [Option.map_some, Option.some.injEq, Session.opCurr, Prod.mk.injEq] at h1
        obtain ⟨_, _, h2, h3⟩ := h1
        refine .same s hj h3 (by rw [h2]) (.inl (by rw [h2])) (fun k m p key hc => ?_)
        cases hc
        exact absurd ⟨_, _, _, rfl⟩ hci

theorem initSeen_keep {h : Nat} {l : Lib} {acc : Option (Kind × Mech × Nat)} {c : Call}
    (hn : ∀ k m p key, c = .sess h (.cryptInit k (some (m, p)) key) → (answer e l c).rv ≠ .ok) :
    initSeen e h l acc c = acc := by
  unfold initSeen
  split
  · refine if_neg ?_
    rintro ⟨rfl, h2⟩
    exact hn _ _ _ _ rfl h2
  · rfl

theorem same_addRsa {α : Type} {π : Session → α} (ho : ∀ (t : Session) os, π { t with objs := os } = π t) (l : Lib) (s : Session)
    (t : List Entry) (d : Bytes) : SameAt π l (addRsaPrivate e l s t d).1 := by
  unfold addRsaPrivate
  repeat' split
  all_goals first | exact .of rfl | exact same_addObject ho ..

/-- `C_Encrypt` with AES-CBC-PAD that finds room for the data ends the operation. -/
theorem encrypt_pad_ends {x : Crypto} {st : OpSt} {o : Obj} {d : Bytes} {ob : OutBuf} (hm : st.mech = .aesCbcPad)
    (hi : st.init = .aesCbcPadEnc) (hq : ¬ ∃ n, ob = .query n) (hn : ob ≠ .noLen)
    (hs : (encrypt x st (some o) (some d) ob 0).2.rv ≠ .bufferTooSmall) :
    (encrypt x st (some o) (some d) ob 0).1.init = .none := by
  cases ob with
  | noLen => exact absurd rfl hn
  | query n => exact absurd ⟨n, rfl⟩ hq
  | buf n =>
    unfold encrypt withArgs at hs ⊢
    simp only [reduceCtorEq, if_false, hm, needInit, hi, if_true, sized] at hs ⊢
    split at hs
    · exact absurd rfl hs
    · rename_i h
      rw [if_neg h]
      rfl

theorem encrypt_pad_query {x : Crypto} {st : OpSt} {o : Obj} {d : Bytes} {n : Nat} (hm : st.mech = .aesCbcPad)
    (hi : st.init = .aesCbcPadEnc) : (encrypt x st (some o) (some d) (.query n) 0).2.rv = .ok := by
  unfold encrypt withArgs
  simp only [reduceCtorEq, if_false, hm, needInit, hi, if_true, sized]

/-- `C_Decrypt` with AES-CBC-PAD ends the operation, whatever it answers. -/
theorem decrypt_pad_ends {x : Crypto} {st : OpSt} {o : Obj} {d : Bytes} {n : Nat} (hm : st.mech = .aesCbcPad)
    (hi : st.init = .aesCbcPadDec) (hf : st.Fit) :
    (decrypt x st (some o) (some d) (.buf n) 0).1.init = .none := by
  unfold decrypt withArgs
  simp only [reduceCtorEq, if_false, hm, needInit, hi, if_true]
  unfold Cbc.padDecrypt finish
  obtain ⟨r, hu, _⟩ := Cbc.padDecUpdate_spec x.aes st.cbc d hf.ok
  rw [hu]
  dsimp only
  split <;> rfl

theorem cbcInit_started {st : OpSt} {o : Obj} {m : Mech} {p : MechParam} {i : OpInit} (h : (cbcInit st o m p i).2 = .ok) :
    (cbcInit st o m p i).1.mech = m ∧ (cbcInit st o m p i).1.init = i := by
  unfold cbcInit at h ⊢
  split at h
  · cases h
  rename_i h1
  rw [if_neg h1]
  cases p with
  | raw iv =>
    dsimp only at h ⊢
    split at h
    · cases h
    rename_i h2
    rw [if_neg h2]
    split at h
    · cases h
    · exact ⟨rfl, rfl⟩
  | _ => cases h

/-- `C_UnwrapKey`, and `C_WrapKey` that is not left half done, end the operation of their session or leave it as it was. -/
theorem wrapStep {l : Lib} (hf : AllFit l) {h : Nat} {c : Call} (hw : WrapsIn h c) (hh : ¬ HalfDone e l h c) (hg : (step e l c).1.bad = false)
    {s' : Session} (hs' : getSession (step e l c).1 h = some s') :
    ∃ s, getSession l h = some s ∧
      (s'.op.init.kind = none ∨ s'.curr = s.curr ∧ s'.op.mech = s.op.mech ∧ s'.op.init.kind = s.op.init.kind) := by
  obtain ⟨hb, hub, hst⟩ := step_good hg
  cases c with
  | cInit => exact hw.elim
  | cFinal => exact hw.elim
  | slot i c => exact hw.elim
  | sess j c =>
    obtain ⟨rfl, hw⟩ := hw
    rw [hst] at hs'
    have hans : answer e l (.sess j c) = (callBody e l (.sess j c)).2 := by unfold answer; rw [hst]
    by_cases hc0 : l.count ≤ 0
    · simp only [callBody, if_pos hc0] at hs'
      exact ⟨s', hs', .inr ⟨rfl, rfl, rfl⟩⟩
    cases hj : getSession l j with
    | none =>
      simp only [callBody, if_neg hc0, hj] at hs'
      cases hs'
    | some s =>
      have hbody : callBody e l (.sess j c) = sessCall e l s c := by simp only [callBody, if_neg hc0, hj]
      rw [hbody] at hs' hans
      have hsj := (getSession_handle hj).1
      refine ⟨s, rfl, ?_⟩
      have same : (sessCall e l s c).1 = l → s'.curr = s.curr ∧ s'.op.mech = s.op.mech ∧ s'.op.init.kind = s.op.init.kind := by
        intro h1
        rw [h1, hj] at hs'
        cases hs'
        exact ⟨rfl, rfl, rfl⟩
      have upd : ∀ f : Session → Session, (∀ t, (f t).handle = t.handle ∧ (f t).use = t.use) →
          (sessCall e l s c).1 = l.upd s.handle f → s' = f s := by
        intro f hf h1
        rw [h1, hsj, getSession_upd_eq hf, hj] at hs'
        cases hs'
        rfl
      cases c with
      | wrap m wk key ob =>
        replace hh : ¬ (((sessCall e l s (.wrap m wk key ob)).2.rv = .ok ∧ ∃ n, ob = .query n) ∨
            ((sessCall e l s (.wrap m wk key ob)).2.rv = .bufferTooSmall ∧ ¬ ∃ n, ob = .query n)) := by
          rw [← hans]
          intro hx
          apply hh
          cases ob with
          | query n => rcases hx with hx | hx
                       · exact ⟨rfl, hx.1⟩
                       · exact absurd ⟨n, rfl⟩ hx.2
          | noLen => rcases hx with ⟨_, _, hx⟩ | hx
                     · cases hx
                     · exact ⟨rfl, hx.1⟩
          | buf n => rcases hx with ⟨_, _, hx⟩ | hx
                     · cases hx
                     · exact ⟨rfl, hx.1⟩
        have hsc : sessCall e l s (.wrap m wk key ob) = cWrap e l s m wk key ob := rfl
        rw [hsc] at hh same upd
        clear hsc
        unfold cWrap at hh same upd
        cases m with
        | none => exact .inr (same rfl)
        | some mp =>
          obtain ⟨m, p⟩ := mp
          dsimp only at hh same upd
          by_cases h1 : ob = .noLen
          · rw [if_pos h1] at same; exact .inr (same rfl)
          rw [if_neg h1] at hh same upd
          by_cases h2 : s.use ≠ .rw
          · rw [if_pos h2] at same; exact .inr (same rfl)
          rw [if_neg h2] at hh same upd
          cases h3 : findObj l s key with
          | none => rw [h3] at same; exact .inr (same rfl)
          | some k =>
            rw [h3] at hh same upd
            cases h4 : findObj l s wk with
            | none => rw [h4] at same; exact .inr (same rfl)
            | some w =>
              rw [h4] at hh same upd
              dsimp only at hh same upd
              by_cases h5 : (!wrappable k.cls k.typ) = true
              · rw [if_pos h5] at same; exact .inr (same rfl)
              rw [if_neg h5] at hh same upd
              cases h6 : e.pkcs8 k.rsa with
              | none => rw [h6] at same; exact .inr (same rfl)
              | some der =>
                rw [h6] at hh same upd
                dsimp only at hh same upd
                by_cases h7 : m ≠ .aesCbcPad
                · rw [if_pos h7] at same; exact .inr (same rfl)
                rw [if_neg h7] at hh same upd
                have h7' : m = .aesCbcPad := Decidable.of_not_not h7
                subst h7'
                by_cases h8 : w.typ ≠ CKK_AES
                · rw [if_pos h8] at same; exact .inr (same rfl)
                rw [if_neg h8] at hh same upd
                by_cases h9 : (encryptInit s.op w .aesCbcPad p).2 ≠ .ok
                · rw [if_pos h9] at upd
                  have hf := initCall_fail (x := e.crypto) (k := .encrypt) (s := s.op) (o := w) (m := .aesCbcPad) (p := p) h9
                  rw [upd (fun u => { u with op := (encryptInit s.op w .aesCbcPad p).1 }) (fun _ => ⟨rfl, rfl⟩) rfl]
                  exact .inr ⟨rfl, hf.1, hf.2⟩
                rw [if_neg h9] at hh upd
                dsimp only at hh upd
                left
                rw [upd (fun u => { u with op := (encrypt e.crypto (encryptInit s.op w .aesCbcPad p).1 (some w) (some der) ob 0).1, curr := some w.uid }) (fun _ => ⟨rfl, rfl⟩) rfl]
                dsimp only
                obtain ⟨g1, g2⟩ := cbcInit_started (Decidable.of_not_not h9)
                rw [not_or] at hh
                have hq : ¬ ∃ n, ob = .query n := by
                  rintro ⟨n, rfl⟩
                  refine hh.1 ⟨?_, n, rfl⟩
                  exact encrypt_pad_query g1 g2
                exact congrArg OpInit.kind (encrypt_pad_ends g1 g2 hq h1 fun hx => hh.2 ⟨hx, hq⟩)
      | unwrap m wk d t ptr =>
        have hsc : sessCall e l s (.unwrap m wk d t ptr) = cUnwrap e l s m wk d t ptr := rfl
        rw [hsc] at same upd hs'
        clear hsc
        unfold cUnwrap at same upd hs'
        by_cases h2 : s.use ≠ .rw
        · rw [if_pos h2] at same; exact .inr (same rfl)
        rw [if_neg h2] at same upd hs'
        cases m with
        | none => exact .inr (same rfl)
        | some mp =>
        obtain ⟨m, p⟩ := mp
        cases d with
        | none => exact .inr (same rfl)
        | some d =>
        cases t with
        | none => exact .inr (same rfl)
        | some t =>
        dsimp only at same upd hs'
        by_cases h3 : d = [] ∨ (!ptr) = true
        · rw [if_pos h3] at same; exact .inr (same rfl)
        rw [if_neg h3] at same upd hs'
        cases h4 : findObj l s wk with
        | none => rw [h4] at same; exact .inr (same rfl)
        | some w =>
        rw [h4] at same upd hs'
        dsimp only at same upd hs'
        by_cases h7 : m ≠ .aesCbcPad
        · rw [if_pos h7] at same; exact .inr (same rfl)
        rw [if_neg h7] at same upd hs'
        have h7' : m = .aesCbcPad := Decidable.of_not_not h7
        subst h7'
        by_cases h5 : unwrapTemplate t ≠ .ok
        · rw [if_pos h5] at same; exact .inr (same rfl)
        rw [if_neg h5] at same upd hs'
        by_cases h8 : w.typ ≠ CKK_AES
        · rw [if_pos h8] at same; exact .inr (same rfl)
        rw [if_neg h8] at same upd hs'
        by_cases h9 : (decryptInit s.op w .aesCbcPad p).2 ≠ .ok
        · rw [if_pos h9] at upd
          have hf := initCall_fail (x := e.crypto) (k := .decrypt) (s := s.op) (o := w) (m := .aesCbcPad) (p := p) h9
          rw [upd (fun u => { u with op := (decryptInit s.op w .aesCbcPad p).1 }) (fun _ => ⟨rfl, rfl⟩) rfl]
          exact .inr ⟨rfl, hf.1, hf.2⟩
        rw [if_neg h9] at upd hs'
        left
        obtain ⟨g1, g2⟩ := cbcInit_started (Decidable.of_not_not h9)
        have hend := decrypt_pad_ends (x := e.crypto) (o := w) (d := d) (n := 0) g1 g2
          (fit_init (x := e.crypto) .decrypt (hf s (getSession_handle hj).2.2) w .aesCbcPad p)
        have hup : getSession (l.upd s.handle fun u => { u with op := (decrypt e.crypto (decryptInit s.op w .aesCbcPad p).1 (some w) (some d) (.buf 0) 0).1, curr := some w.uid }) j =
            some { s with op := (decrypt e.crypto (decryptInit s.op w .aesCbcPad p).1 (some w) (some d) (.buf 0) 0).1, curr := some w.uid } := by
          have := getSession_upd_eq (l := l) (h := j) (f := fun u => { u with op := (decrypt e.crypto (decryptInit s.op w .aesCbcPad p).1 (some w) (some d) (.buf 0) 0).1, curr := some w.uid }) (fun _ => ⟨rfl, rfl⟩)
          rw [hj] at this
          rw [hsj, this, Option.map_some, ← hsj]
        split at hs'
        · have hs' := hup.symm.trans hs'
          cases hs'
          exact congrArg OpInit.kind hend
        · have h1 := getSession_opCurr (same_addRsa (e := e) (π := Session.opCurr) (fun _ _ => rfl) (l.upd s.handle fun u => { u with op := (decrypt e.crypto (decryptInit s.op w .aesCbcPad p).1 (some w) (some d) (.buf 0) 0).1, curr := some w.uid }) s t (decrypt e.crypto (decryptInit s.op w .aesCbcPad p).1 (some w) (some d) (.buf 0) 0).2.wr) j
          rw [hs', hup] at h1
          simp only [Option.map_some, Option.some.injEq, Session.opCurr, Prod.mk.injEq] at h1
          rw [h1.2.2.1]
          exact congrArg OpInit.kind hend
      | _ => exact hw.elim

/-- What is known of a session from the operation that was begun in it. -/
def OpKnown (l : Lib) (h : Nat) (acc : Option (Kind × Mech × Nat)) : Prop :=
  (getSession l h = none → acc = none) ∧
  ∀ s, getSession l h = some s → s.curr ≠ none → ∀ k, s.op.init.kind = some k → ∃ key, acc = some (k, s.op.mech, key)

theorem OpKnown.step {l : Lib} {h : Nat} {acc : Option (Kind × Mech × Nat)} (hk : OpKnown l h acc) (hi : SInv l) (hf : AllFit l) {c : Call}
    (hw : ¬ HalfDone e l h c) (hg : (Verif.step e l c).1.bad = false) : OpKnown (Verif.step e l c).1 h (noted e h l acc c) := by
  have hi' : SInv (Verif.step e l c).1 := hi.step e c
  unfold noted
  refine ⟨fun hn => if_neg fun ho => ?_, fun s' hs' => ?_⟩
  · obtain ⟨_, s, hs⟩ := (isOpen_iff hi').mp ho
    rw [hn] at hs; cases hs
  · have ho : (sessionInfo e (Verif.step e l c).1 h).rv = .ok := (isOpen_iff hi').mpr ⟨hg, s', hs'⟩
    rw [if_pos ho]
    intro hcu k hki
    cases opStep hi c h hg hs' with
    | same s hs hc hm hkd hn =>
      have hacc : initSeen e h l acc c = acc := initSeen_keep hn
      rw [hacc, hm]
      refine hk.2 s hs (hc ▸ hcu) k ?_
      rcases hkd with h5 | h5
      · rw [← h5]; exact hki
      · rw [h5] at hki; cases hki
    | fresh hs hc hn => exact absurd hc hcu
    | init k' m p key hc hok hm hkd =>
      subst hc
      rw [show initSeen e h l acc (.sess h (.cryptInit k' (some (m, p)) key)) = some (k', m, key) from if_pos ⟨rfl, hok⟩]
      rw [hkd] at hki
      cases hki
      exact ⟨key, by rw [hm]⟩
    | wrap hw' =>
      have hacc : initSeen e h l acc c = acc := by
        cases c with
        | sess j c => cases c <;> first | rfl | exact hw'.2.elim
        | _ => rfl
      rw [hacc]
      obtain ⟨s, hs, h1⟩ := wrapStep hf hw' hw hg hs'
      rcases h1 with h1 | ⟨h1, h2, h3⟩
      · rw [h1] at hki; cases hki
      · rw [h2]
        exact hk.2 s hs (h1 ▸ hcu) k (h3 ▸ hki)

theorem OpKnown.run (hx : e.crypto.aes.Lawful) {h : Nat} (cs : List Call) : ∀ {l : Lib} {acc : Option (Kind × Mech × Nat)}, OpKnown l h acc → SInv l → AllFit l →
    (∀ cs₁ c cs₂, cs = cs₁ ++ c :: cs₂ → ¬ HalfDone e (Verif.run e l cs₁) h c) → (Verif.run e l cs).bad = false →
    OpKnown (Verif.run e l cs) h (begun e h l cs acc) := by
  induction cs with
  | nil => intro l acc hk _ _ _ _; exact hk
  | cons c cs ih =>
    intro l acc hk hi hf hw hg
    have hg : (Verif.run e (Verif.step e l c).1 cs).bad = false := hg
    exact ih (hk.step hi hf (hw [] c cs rfl) (run_good hg)) (hi.step e c) (hf.step (fit_keeps hx) c)
      (fun cs₁ d cs₂ hc => hw (c :: cs₁) d cs₂ (by rw [hc]; rfl)) hg

/-- When the operation of a session is known, a data call of another kind is refused. -/
theorem data_known {l : Lib} {h : Nat} {acc : Option (Kind × Mech × Nat)} (hk : OpKnown l h acc) (hi : SInv l)
    (hbad : l.bad = false) (d : DataCall) (hr : ¬ DataRefused e l h d)
    (hub : (answer e l (.sess h (.crypt d))).rv ≠ .ub) :
    ∃ m key st, acc = some (d.kind, m, key) ∧ operation l h = some st ∧ st.mech = m := by
  have hst : step e l (.sess h (.crypt d)) = callBody e l (.sess h (.crypt d)) := by
    refine step_eq hbad ?_
    unfold answer at hub
    rwa [step_resp hbad] at hub
  by_cases hc0 : l.count ≤ 0
  · exfalso
    apply hr
    unfold DataRefused answer
    dsimp only
    rw [hst]
    simp [callBody, hc0]
  cases hs : getSession l h with
  | none =>
    exfalso
    apply hr
    unfold DataRefused answer
    dsimp only
    rw [hst]
    simp [callBody, hc0, hs]
  | some s =>
    have k2 := hk.2 s hs
    have hbody : step e l (.sess h (.crypt d)) = cCrypt e l s d := by
      rw [hst]; simp only [callBody, if_neg hc0, hs]; rfl
    obtain ⟨hsj, _, hsm⟩ := getSession_handle hs
    have hop : operation l h = some s.op := by
      unfold operation
      rw [(find_iff hi.nodup).mpr ⟨hsm, hsj⟩]; rfl
    have hop' : ∀ st, operation (l.upd s.handle fun u => { u with op := st }) h = some st := by
      intro st
      unfold operation Lib.upd
      dsimp only
      rw [hsj, find_map_eq (g := fun u => { u with op := st }) (fun _ => rfl), (find_iff hi.nodup).mpr ⟨hsm, hsj⟩]
      rfl
    -- a refusal by the session is a refusal of the call
    have key : ∀ o? : Option Obj, cCrypt e l s d =
        (l.upd s.handle fun u => { u with op := (d.run e.crypto s.op o?).1 },
          { rv := (d.run e.crypto s.op o?).2.rv, out := some (d.run e.crypto s.op o?).2 }) →
        Refused s.op (d.run e.crypto s.op o?) → DataRefused e l h d := by
      rintro o? h1 ⟨r1, r2, r3, r4⟩
      unfold DataRefused answer
      dsimp only
      rw [hbody, h1]
      refine ⟨?_, ?_, ?_⟩
      · rcases r4 with r4 | r4 | r4 <;> simp [r4]
      · intro o ho; cases ho; exact ⟨r2, r3⟩
      · rw [hop', hop, r1]
    cases hck : currKey l s with
    | null =>
      exact absurd (key none (by unfold cCrypt; rw [hck]) (run_noKey _ _ _)) hr
    | obj o =>
      have hnr : ¬ Refused s.op (d.run e.crypto s.op (some o)) := fun h1 => hr (key (some o) (by unfold cCrypt; rw [hck]) h1)
      have hkind : s.op.init.kind = some d.kind := by
        apply Decidable.byContradiction; intro hne; exact hnr (run_refused e.crypto s.op (some o) d hne)
      have hcu : s.curr ≠ none := by
        intro hcu
        unfold currKey at hck
        rw [hcu] at hck
        cases hck
      obtain ⟨ky, hky⟩ := k2 hcu _ hkind
      exact ⟨s.op.mech, ky, s.op, hky, hop, rfl⟩
    | freed =>
      exfalso
      have h1 : cCrypt e l s d = (if (d.run e.crypto s.op none).2.rv = .argumentsBad then
          (l, { rv := .argumentsBad, out := some (d.run e.crypto s.op none).2 }) else (l, { rv := .ub })) := by
        unfold cCrypt; rw [hck]
      obtain ⟨_, r2, r3, _⟩ := run_noKey e.crypto s.op d
      by_cases h2 : (d.run e.crypto s.op none).2.rv = .argumentsBad
      · rw [if_pos h2] at h1
        apply hr
        unfold DataRefused answer
        dsimp only
        rw [hbody, h1]
        refine ⟨by simp, ?_, rfl⟩
        intro o ho; cases ho; exact ⟨r2, r3⟩
      · rw [if_neg h2] at h1
        unfold answer at hub
        rw [hbody, h1] at hub
        exact hub rfl

/-- **C53** for histories of the whole interface (partial).  Whatever happened before, a data
call in a session is refused -- nothing is written and the running operation stays as it is --
unless the last successful Init of the session since it was opened was of the same kind; and
then the mechanism is the one given to that Init.
Missing: sessions in which `C_WrapKey` answered the length or that the buffer is too small (`c53_violated`,
`Demo.c53_violated_query`). -/
theorem c53_history_partial (hx : e.crypto.aes.Lawful) {l₀ : Lib} (h₀ : Start l₀) (cs : List Call) (h : Nat)
    (hw : ∀ cs₁ c cs₂, cs = cs₁ ++ c :: cs₂ → ¬ HalfDone e (run e l₀ cs₁) h c) (d : DataCall)
    (hr : ¬ DataRefused e (run e l₀ cs) h d) (hub : (answer e (run e l₀ cs) (.sess h (.crypt d))).rv ≠ .ub) :
    ∃ m key st, begun e h l₀ cs none = some (d.kind, m, key) ∧ operation (run e l₀ cs) h = some st ∧ st.mech = m := by
  have hi := h₀.sinv.run e cs
  have hk0 : OpKnown l₀ h none := by
    refine ⟨fun _ => rfl, fun s hs => ?_⟩
    have := (getSession_handle hs).2.2
    rw [h₀.sessions] at this; cases this
  have hbad : (run e l₀ cs).bad = false := by
    cases hb : (run e l₀ cs).bad with
    | false => rfl
    | true => unfold answer at hub; rw [step_bad hb] at hub; exact absurd rfl hub
  have hk := OpKnown.run hx cs hk0 h₀.sinv h₀.allOps hw hbad
  exact data_known hk hi hbad d hr hub

/-- An encryption that was begun, the data call it allows, and the same call in a new session. -/
example : begun Demo.env 65538 Demo.fresh (Demo.setup ++ [createCall 65538 (Demo.aesTmpl false 1),
      .sess 65538 (.cryptInit .encrypt (some (.aesCbcPad, .raw Demo.iv)) 1)]) none = some (.encrypt, .aesCbcPad, 1) ∧
    (answer Demo.env (run Demo.env Demo.fresh (Demo.setup ++ [createCall 65538 (Demo.aesTmpl false 1),
      .sess 65538 (.cryptInit .encrypt (some (.aesCbcPad, .raw Demo.iv)) 1)]))
      (.sess 65538 (.crypt (.encrypt (some [1, 2, 3]) (.buf 16) 0)))).rv = .ok ∧
    (answer Demo.env (run Demo.env Demo.fresh (Demo.setup ++ [createCall 65538 (Demo.aesTmpl false 1),
      .sess 65538 (.cryptInit .encrypt (some (.aesCbcPad, .raw Demo.iv)) 1), .sess 65538 .close, openCall true]))
      (.sess 65538 (.crypt (.encrypt (some [1, 2, 3]) (.buf 16) 0)))).rv = .operationNotInitialized := by
  decide

set_option maxRecDepth 20000 in
/-- C53 fails after `C_WrapKey`: called with a buffer that is too small it leaves an encryption
with the wrapping key active, so that `C_Encrypt` works in a session in which no operation was
ever begun. -/
theorem c53_violated :
    ∃ (e : Env) (l₀ : Lib) (cs : List Call) (d : DataCall), Start l₀ ∧ begun e 65538 l₀ cs none = none ∧
      answer e (run e l₀ cs) (.sess 65538 (.crypt d)) =
        { rv := .ok, out := some ⟨.ok, [1, 2, 3, 13, 13, 13, 13, 13, 13, 13, 13, 13, 13, 13, 13, 13], some 16⟩ } :=
  ⟨Demo.wrapEnv, Demo.fresh, Demo.wrapKeys ++ [wrapCall 65538 2 1 Demo.iv 1], .encrypt (some [1, 2, 3]) (.buf 16) 0,
    Demo.fresh_start, by decide, by decide⟩

set_option maxRecDepth 20000 in
/-- The same after `C_WrapKey` is asked for the length of its output, as the first half of the two-call
protocol. -/
theorem Demo.c53_violated_query :
    let cs := Demo.wrapKeys ++ [.sess 65538 (.wrap (some (.aesCbcPad, .raw Demo.iv)) 2 1 (.query 0))]
    (answer Demo.wrapEnv (run Demo.wrapEnv Demo.fresh Demo.wrapKeys)
      (.sess 65538 (.wrap (some (.aesCbcPad, .raw Demo.iv)) 2 1 (.query 0)))).rv = .ok ∧
    begun Demo.wrapEnv 65538 Demo.fresh cs none = none ∧
    (answer Demo.wrapEnv (run Demo.wrapEnv Demo.fresh cs) (.sess 65538 (.crypt (.encrypt (some [1, 2, 3]) (.buf 16) 0)))).out =
      some ⟨.ok, [1, 2, 3, 13, 13, 13, 13, 13, 13, 13, 13, 13, 13, 13, 13, 13], some 16⟩ := by
  decide

theorem splits_of_take {P : List Call → Call → Prop} {cs : List Call}
    (h : ∀ i : Fin cs.length, P (cs.take i) (cs.get i)) : ∀ cs₁ c cs₂, cs = cs₁ ++ c :: cs₂ → P cs₁ c := by
  rintro cs₁ c cs₂ rfl
  have := h ⟨cs₁.length, by simp⟩
  simpa using this

set_option maxRecDepth 40000 in
/-- Non-vacuity of `c53_history_partial` with both calls in the session: the key is wrapped and unwrapped, and an
encryption begun after that works; before it, it is refused. -/
example :
    let cs := Demo.wrapKeys ++ [wrapCall 65538 2 1 Demo.iv 16, unwrapCall 65538 2 Demo.iv Demo.wrapped Demo.unwrapTmpl]
    let ini : Call := .sess 65538 (.cryptInit .encrypt (some (.aesCbcPad, .raw Demo.iv)) 2)
    let d : DataCall := .encrypt (some [1, 2, 3]) (.buf 16) 0
    Demo.wrapEnv.crypto.aes.Lawful ∧
    (∀ cs₁ c cs₂, cs ++ [ini] = cs₁ ++ c :: cs₂ → ¬ HalfDone Demo.wrapEnv (run Demo.wrapEnv Demo.fresh cs₁) 65538 c) ∧
    (answer Demo.wrapEnv (run Demo.wrapEnv Demo.fresh (cs ++ [ini])) (.sess 65538 (.crypt d))).rv = .ok ∧
    (answer Demo.wrapEnv (run Demo.wrapEnv Demo.fresh cs) (.sess 65538 (.crypt d))).rv = .operationNotInitialized := by
  refine ⟨Demo.aes_lawful, splits_of_take (by decide +kernel), by decide, by decide⟩

set_option maxRecDepth 40000 in
/-- And with a `C_UnwrapKey` that fails while decrypting: no decryption is left behind. -/
example :
    let cs := Demo.wrapKeys ++ [unwrapCall 65538 2 Demo.iv [1, 2, 3] Demo.unwrapTmpl]
    let ini : Call := .sess 65538 (.cryptInit .decrypt (some (.aesCbcPad, .raw Demo.iv)) 2)
    let d : DataCall := .decrypt (some (List.replicate 16 16)) (.buf 16) 0
    (answer Demo.wrapEnv (run Demo.wrapEnv Demo.fresh Demo.wrapKeys)
      (unwrapCall 65538 2 Demo.iv [1, 2, 3] Demo.unwrapTmpl)).rv = .functionFailed ∧
    (∀ cs₁ c cs₂, cs ++ [ini] = cs₁ ++ c :: cs₂ → ¬ HalfDone Demo.wrapEnv (run Demo.wrapEnv Demo.fresh cs₁) 65538 c) ∧
    (answer Demo.wrapEnv (run Demo.wrapEnv Demo.fresh (cs ++ [ini])) (.sess 65538 (.crypt d))).rv = .ok ∧
    (answer Demo.wrapEnv (run Demo.wrapEnv Demo.fresh cs) (.sess 65538 (.crypt d))).rv = .operationNotInitialized := by
  refine ⟨by decide, splits_of_take (by decide +kernel), by decide, by decide⟩

set_option maxRecDepth 20000 in
/-- And the wrapping key is in use by that encryption (C55): when it is destroyed `C_Encrypt`
works on freed memory, although no operation was ever begun with that key. -/
theorem Demo.c55_violated_wrap :
    let cs := Demo.wrapKeys ++ [wrapCall 65538 2 1 Demo.iv 1, .sess 65538 (.destroy 2)]
    (run Demo.wrapEnv Demo.fresh cs).bad = false ∧ begun Demo.wrapEnv 65538 Demo.fresh cs none = none ∧
    (answer Demo.wrapEnv (run Demo.wrapEnv Demo.fresh cs) (.sess 65538 (.crypt (.encrypt (some [1, 2, 3]) (.buf 16) 0)))).rv = .ub := by
  decide

/-- **C95**: a session that was just opened has no objects, and in it every data call of
every cryptographic function is refused, whatever operation an earlier session with the same
handle had begun. -/
theorem c95_new_session {l₀ : Lib} (h₀ : Start l₀) (cs : List Call) (rw' : Bool) (h : Nat)
    (hok : answer e (run e l₀ cs) (openCall rw') = { rv := .ok, handle := some h }) :
    let l' := run e l₀ (cs ++ [openCall rw'])
    ¬ IsOpen e (run e l₀ cs) h ∧ OpenAs e l' h rw' ∧ sessObjs l' h = [] ∧
    (∀ d, DataRefused e l' h d) := by
  intro l'
  have hi := h₀.sinv.run e cs
  have hl' : l' = (step e (run e l₀ cs) (openCall rw')).1 := by show run e l₀ (cs ++ _) = _; rw [run_append]; rfl
  have hi' : SInv l' := h₀.sinv.run e _
  generalize run e l₀ cs = l at *
  have hb : l.bad = false := by
    cases hb : l.bad with
    | false => rfl
    | true => unfold answer at hok; rw [step_bad hb] at hok; cases hok
  have hc0 : 0 < l.count := by
    rcases Int.lt_or_le 0 l.count with h1 | h1
    · exact h1
    · exfalso
      unfold answer at hok
      rw [step_resp hb] at hok
      simp [callBody, openCall, h1] at hok
  obtain ⟨hb', hcase⟩ := openSession_spec (e := e) hi hb hc0 rw'
  rw [← hl'] at hb' hcase
  unfold answer at hok
  change _ ∨ _ at hcase
  rcases hcase with ⟨_, _, h3⟩ | ⟨_, _, _, h3⟩ | ⟨_, _, h', h3, h4, ⟨s, h5, h5', h6, h7⟩, _, _, h8⟩
  · rw [h3] at hok; cases hok
  · rw [h3] at hok; cases hok
  · rw [h3] at hok
    cases hok
    have hc' : 0 < l'.count := by rw [h8]; exact hc0
    refine ⟨?_, ?_, ?_, fun d => ?_⟩
    · intro ho
      obtain ⟨_, s, hs⟩ := (isOpen_iff hi).mp ho
      rw [h4] at hs; cases hs
    · exact (openAs_iff hi').mpr ⟨hb', s, h5, h5'⟩
    · unfold sessObjs; rw [h5]; exact h6
    · have hck : currKey l' s = .null := by unfold currKey; rw [h7]
      have hcr : sessCall e l' s (.crypt d) = (l'.upd s.handle fun u => { u with op := (d.run e.crypto s.op none).1 },
          { rv := (d.run e.crypto s.op none).2.rv, out := some (d.run e.crypto s.op none).2 }) := by
        show cCrypt e l' s d = _
        unfold cCrypt; rw [hck]
      obtain ⟨r1, r2, r3, r4⟩ := run_noKey e.crypto s.op d
      have hbody : callBody e l' (.sess h (.crypt d)) = sessCall e l' s (.crypt d) := by
        simp only [callBody, if_neg (by omega : ¬ l'.count ≤ 0), h5]
      have hst : step e l' (.sess h (.crypt d)) = sessCall e l' s (.crypt d) := by
        rw [step_eq hb', hbody]
        rw [hbody, hcr]
        rcases r4 with r4 | r4 | r4 <;> simp [r4]
      unfold DataRefused answer
      dsimp only
      rw [hst, hcr]
      refine ⟨?_, ?_, ?_⟩
      · rcases r4 with r4 | r4 | r4 <;> simp [r4]
      · intro o ho; cases ho; exact ⟨r2, r3⟩
      · obtain ⟨hsj, _, hsm⟩ := getSession_handle h5
        unfold operation Lib.upd
        dsimp only
        rw [hsj, find_map_eq (g := fun u => { u with op := (d.run e.crypto s.op none).1 }) (fun _ => rfl), (find_iff hi'.nodup).mpr ⟨hsm, hsj⟩, r1]
        rfl

/-- The hypothesis of `c95_new_session`, after a session with the same handle was closed in
the middle of an encryption. -/
example : answer Demo.env (run Demo.env Demo.fresh (Demo.setup ++ [createCall 65538 (Demo.aesTmpl false 1),
      .sess 65538 (.cryptInit .encrypt (some (.aesCbcPad, .raw Demo.iv)) 1), .sess 65538 .close])) (openCall true) =
    { rv := .ok, handle := some 65538 } := by decide

end Verif
