import Verif.Props.Lives
import Verif.Spec.Label

/-!
# C115: the label of a token over the lives of several processes
-/

namespace Verif

variable {e : Env}

/-- The bytes that stand for a label. -/
def labelBytes (q : Option Bytes) : Bytes := q.getD (List.replicate 32 0)

/-- The label found: the one given, or none. -/
def LRel (lost : Prop) (q lab : Option Bytes) : Prop := q = lab ∨ (lost ∧ q = none)

/-- The label in memory and in the token's file. -/
structure LabelInv (lost : Prop) (l : Lib) (lab : Option Bytes) : Prop where
  mem : 0 < l.count → ∃ q, LRel lost q lab ∧ l.token.label = labelBytes q
  file : ∀ b, l.disk (.token, 0) = some b → ∃ (r : TokenRec) (q : Option Bytes), b = wrToken r ∧ LRel lost q lab ∧
    r.label = labelBytes q
  nofile : l.disk (.token, 0) = none → lab = none
  full : ∀ b, lab = some b → b.length = 32

theorem labelBytes_length {q : Option Bytes} (h : ∀ b, q = some b → b.length = 32) : (labelBytes q).length = 32 := by
  cases q with
  | none => rfl
  | some b => exact h b rfl

theorem LRel.full {lost : Prop} {q lab : Option Bytes} (h : LRel lost q lab) (hl : ∀ b, lab = some b → b.length = 32) :
    ∀ b, q = some b → b.length = 32 := by
  rcases h with rfl | ⟨_, rfl⟩
  · exact hl
  · intro b hb; cases hb

/-- Reading the label out of a token's file. -/
theorem rd_label {r r' : TokenRec} {rest : Bytes} (h : r.label.length = 32)
    (hr : rdToken (wrToken r) = some (r', rest)) : r'.label = r.label := by
  have h0 : rdToken (r.label ++ (wrAccount r.so ++ (wrAccount r.user ++ (r.seed ++
      (wrInt r.types.length ++ (r.types.map wrUlong).flatten))))) = some (r', rest) := by
    simpa only [wrToken, List.append_assoc] using hr
  obtain ⟨_, b1, h1, h0⟩ := rd_bind h0
  rw [(ReadsBack.fixed h).1] at h1; cases h1
  obtain ⟨_, b2, h2, h0⟩ := rd_bind h0
  obtain ⟨_, b3, h3, h0⟩ := rd_bind h0
  obtain ⟨_, b4, h4, h0⟩ := rd_bind h0
  obtain ⟨_, b5, h5, h0⟩ := rd_bind h0
  obtain ⟨_, b6, h6, h0⟩ := rd_bind h0
  cases h0
  rfl

/-- What a call does to the label in memory. -/
theorem label_callBody (l : Lib) (c : Call) (h1 : c ≠ .cInit) (h2 : c ≠ .cFinal) (lab : Option Bytes)
    (hc : ∀ i pin b, c = .slot i (.initToken pin (some b)) → b.length = 32)
    (h : l.token.label = labelBytes lab) :
    (callBody e l c).1.token.label = labelBytes (labelNext lab (callBody e l c).2 c) := by
  by_cases hon : c.onAccounts = false
  · have hn : labelNext lab (callBody e l c).2 c = lab := by
      cases c with
      | slot i sc => cases sc <;> first | rfl | cases hon
      | _ => rfl
    rw [hn]
    obtain ⟨_, _, _, _, h5⟩ := sameAcct_callBody e l c hon
    rw [h5, h]
  cases c with
  | cInit => exact absurd rfl h1
  | cFinal => exact absurd rfl h2
  | slot id sc =>
    cases sc with
    | initToken p lb =>
      have key : (callBody e l (.slot id (.initToken p lb))).1 = l ∧ (callBody e l (.slot id (.initToken p lb))).2.rv ≠ .ok ∨
          ∃ b, lb = some b ∧ (callBody e l (.slot id (.initToken p lb))).2.rv = .ok ∧
            (callBody e l (.slot id (.initToken p lb))).1.token.label = labelOf b := by
        simp only [callBody]
        split; · exact .inl ⟨rfl, by simp⟩
        split; · exact .inl ⟨rfl, by simp⟩
        simp only [slotCall]
        rcases initToken_spec e l p lb with h' | ⟨_, b, _, hb, _, _, h', h''⟩
        · exact .inl ⟨h'.1, h'.2.1⟩
        · exact .inr ⟨b, hb, by rw [h'], by rw [h'']⟩
      rcases key with ⟨k1, k2⟩ | ⟨b, rfl, k1, k2⟩
      · rw [k1, h]
        cases lb with
        | none => rfl
        | some b => dsimp only [labelNext]; rw [if_neg k2]
      · rw [k2]
        dsimp only [labelNext]
        rw [if_pos k1]
        have := hc id p b rfl
        show labelOf b = b
        unfold labelOf
        rw [List.take_append_of_le_length (by omega), List.take_of_length_le (by omega)]
    | _ => exact absurd rfl hon
  | sess k sc =>
    have hn : labelNext lab (callBody e l (.sess k sc)).2 (.sess k sc) = lab := rfl
    rw [hn, ← h]
    simp only [callBody]
    split; · rfl
    split; · rfl
    rename_i t _
    cases sc
    case login u pin now =>
      simp only [sessCall, login]
      repeat' split
      · rfl
      · rfl
      · exact (soLogin_acct e l ‹_› now).2.2.2.2.1
      · exact (userLogin_acct e l ‹_› now).2.2.2.2
      · rfl
      · rfl
    case initPin p =>
      simp only [sessCall]
      rcases initPin_spec e l t p with h' | ⟨_, _, _, _, h'⟩
      · rw [h'.1]
      · rw [h']; rfl
    case setPin o n =>
      simp only [sessCall]
      rcases setPin_spec e l t o n with h' | ⟨_, _, _, _, _, _, ⟨_, _, h'⟩ | ⟨_, _, h'⟩⟩
      · rw [h'.1]
      · rw [h']; rfl
      · rw [h']; rfl
    all_goals exact absurd rfl hon

theorem LRel.next {lost : Prop} {q lab : Option Bytes} (h : LRel lost q lab) (r : Resp) (c : Call) :
    LRel lost (labelNext q r c) (labelNext lab r c) := by
  rcases h with rfl | ⟨h1, rfl⟩
  · exact .inl rfl
  · unfold labelNext
    split
    · split
      · exact .inl rfl
      · exact .inr ⟨h1, rfl⟩
    · exact .inr ⟨h1, rfl⟩

/-- Loading the token. -/
theorem label_load {lost : Prop} {l : Lib} {lab : Option Bytes} (h : LabelInv lost l lab) (hr : lost ∨ Readable e l) :
    ∃ q, LRel lost q lab ∧ (loadToken e.store l.disk l.uid).label = labelBytes q := by
  unfold loadToken
  cases hf : l.disk (.token, 0) with
  | none => exact ⟨none, .inl (h.nofile hf).symm, rfl⟩
  | some b =>
    obtain ⟨r, q, rfl, hq, hl⟩ := h.file b hf
    dsimp only
    split
    · rename_i hrd
      refine ⟨none, .inr ⟨?_, rfl⟩, rfl⟩
      rcases hr with hr | hr
      · exact hr
      · rcases hr with hr | ⟨b, r', rest, os, h1, h2, _⟩
        · rw [hf] at hr; cases hr
        · rw [hf] at h1; cases h1; rw [hrd] at h2; cases h2
    · rename_i r' rest hrd
      split
      · rename_i hos
        refine ⟨none, .inr ⟨?_, rfl⟩, rfl⟩
        rcases hr with hr | hr
        · exact hr
        · rcases hr with hr | ⟨b, r'', rest', os, h1, h2, h3⟩
          · rw [hf] at hr; cases hr
          · rw [hf] at h1; cases h1; rw [hrd] at h2; cases h2; rw [hos] at h3; cases h3
      · refine ⟨q, hq, ?_⟩
        show r'.label = _
        rw [rd_label (by rw [hl]; exact labelBytes_length (hq.full h.full)) hrd, hl]

theorem labelNext_full {lab : Option Bytes} (h : ∀ b, lab = some b → b.length = 32) {c : Call} (r : Resp)
    (hc : ∀ i pin b, c = .slot i (.initToken pin (some b)) → b.length = 32) :
    ∀ b, labelNext lab r c = some b → b.length = 32 := by
  intro b hb
  unfold labelNext at hb
  split at hb
  · split at hb
    · cases hb; exact hc _ _ _ rfl
    · exact h b hb
  · exact h b hb

theorem LabelInv.call {lost : Prop} {l : Lib} {lab : Option Bytes} (hb : l.bad = false) (h : LabelInv lost l lab) (c : Call)
    (hc : ∀ i pin b, c = .slot i (.initToken pin (some b)) → b.length = 32) (hr : c = .cInit → lost ∨ Readable e l) :
    LabelInv lost (step e l c).1 (labelNext lab (answer e l c) c) := by
  have hst := step_sessions (e := e) hb c
  by_cases h1 : c = .cInit
  · subst h1
    have hd : (step e l .cInit).1.disk = l.disk := by
      rw [hst.2.2.2]; simp only [callBody, cInitialize]; split <;> rfl
    refine ⟨fun hc => ?_, by rw [hd]; exact h.file, by rw [hd]; exact h.nofile, h.full⟩
    rw [hst.2.1] at hc
    rw [hst.2.2.1]
    simp only [callBody, cInitialize] at hc ⊢
    by_cases h0 : l.count = 0
    · obtain ⟨q, hq, hl⟩ := label_load h (hr rfl)
      simp only [if_pos h0]
      exact ⟨q, hq, hl⟩
    · simp only [if_neg h0] at hc ⊢
      exact h.mem (by omega)
  by_cases h2 : c = .cFinal
  · subst h2
    by_cases h0 : l.count - 1 = 0
    · obtain ⟨q, hq, hl⟩ := h.mem (by omega)
      have hd : (step e l .cFinal).1.disk (.token, 0) = some (wrToken l.token.toRec) := by
        rw [hst.2.2.2]
        simp only [callBody, cFinalize, if_pos h0]
        exact store_token_file e { l with count := l.count - 1 }
      refine ⟨fun hc => ?_, fun b hx => ?_, fun hx => ?_, h.full⟩
      · rw [hst.2.1] at hc
        simp only [callBody, cFinalize, if_pos h0] at hc
        exact absurd hc (by show ¬ 0 < l.count - 1; omega)
      · rw [hd] at hx; cases hx
        exact ⟨_, q, rfl, hq, hl⟩
      · rw [hd] at hx; cases hx
    · have ht : (step e l .cFinal).1.token = l.token := by
        rw [hst.2.2.1]; simp only [callBody, cFinalize, if_neg h0]
      have hd : (step e l .cFinal).1.disk = l.disk := by
        rw [hst.2.2.2]; simp only [callBody, cFinalize, if_neg h0]
      refine ⟨fun hc => ?_, by rw [hd]; exact h.file, by rw [hd]; exact h.nofile, h.full⟩
      rw [hst.2.1] at hc
      simp only [callBody, cFinalize, if_neg h0] at hc
      rw [ht]
      exact h.mem (by omega)
  have hcount : (step e l c).1.count = l.count := by
    rw [hst.2.1, callBody_count]
    cases c <;> first | rfl | contradiction | skip
  have hans : answer e l c = (callBody e l c).2 := step_resp hb c
  have hfull := labelNext_full h.full (answer e l c) hc
  have hmem : 0 < (step e l c).1.count →
      ∃ q, LRel lost q (labelNext lab (answer e l c) c) ∧ (step e l c).1.token.label = labelBytes q := by
    intro hx
    obtain ⟨q, hq, hl⟩ := h.mem (by omega)
    refine ⟨_, hq.next (answer e l c) c, ?_⟩
    rw [hst.2.2.1, hans]
    exact label_callBody l c h1 h2 q hc hl
  by_cases hpos : 0 < l.count
  · obtain ⟨q, hq, hl⟩ := hmem (by omega)
    rcases file_callBody (e := e) l c h1 h2 with ⟨hd, hn⟩ | ⟨r, hd, ho⟩
    · rw [← hst.2.2.2] at hd
      have hp : labelNext lab (answer e l c) c = lab := by
        rw [hans]
        cases c with
        | slot i sc =>
          cases sc with
          | initToken p lb =>
            cases lb with
            | none => rfl
            | some b =>
              dsimp only [labelNext]
              split
              · rename_i hok
                cases p with
                | none =>
                  exfalso
                  simp only [callBody] at hok
                  split at hok; · cases hok
                  split at hok; · cases hok
                  cases hok
                | some p =>
                  exfalso
                  have := hn {} none
                  unfold Pins.next at this
                  rw [if_pos (.inl hok)] at this
                  cases this
              · rfl
          | _ => rfl
        | _ => rfl
      refine ⟨hmem, ?_, ?_, hfull⟩
      · rw [hd, hp]; exact h.file
      · rw [hd, hp]; exact h.nofile
    · rw [← hst.2.2.2] at hd
      rw [← hst.2.2.1] at ho
      refine ⟨hmem, fun b hx => ?_, fun hx => ?_, hfull⟩
      · rw [hd] at hx; cases hx
        exact ⟨r, q, rfl, hq, ho.label.trans hl⟩
      · rw [hd] at hx; cases hx
  · have hcl : (callBody e l c) = (l, { rv := .cryptokiNotInitialized }) := by
      have : l.count ≤ 0 := by omega
      cases c with
      | cInit => exact absurd rfl h1
      | cFinal => exact absurd rfl h2
      | slot id sc => simp only [callBody, if_pos this]
      | sess k sc => simp only [callBody, if_pos this]
    have hp : labelNext lab (answer e l c) c = lab := by
      rw [hans, hcl]
      unfold labelNext
      split
      · rw [if_neg (by simp)]
      · rfl
    have hd : (step e l c).1.disk = l.disk := by rw [hst.2.2.2, hcl]
    rw [hp]
    exact ⟨fun hx => absurd hx (by omega), by rw [hd]; exact h.file, by rw [hd]; exact h.nofile, h.full⟩

theorem LabelInv.live {lost : Prop} {l : Lib} {lab : Option Bytes} (h : LabelInv lost l lab) (vs : List Event)
    (hv : FullLabels vs) (hr : lost ∨ AlwaysReadable e l vs) (hb' : (live e l vs).bad = false) :
    LabelInv lost (live e l vs) (labelLive e l lab vs) := by
  induction vs generalizing l lab with
  | nil => exact h
  | cons v vs ih =>
    have hv' : FullLabels vs := fun i pin b hm => hv i pin b (List.mem_cons_of_mem _ hm)
    have hb : l.bad = false := by
      cases hx : l.bad with
      | false => rfl
      | true => rw [bad_live hx] at hb'; cases hb'
    cases v with
    | call c =>
      refine ih (h.call hb c (fun i pin b hc => hv i pin b (by rw [hc]; exact List.mem_cons_self))
        (fun hc => hr.imp id (fun h => h.1 (by rw [hc])))) hv' (hr.imp id (·.2)) hb'
    | killed =>
      exact ih (l := Event.killed.next e l) ⟨fun hc => absurd hc (by show ¬ (0 : Int) < 0; omega), h.file, h.nofile, h.full⟩ hv'
        (hr.imp id (·.2)) hb'

theorem Start.labelInv {lost : Prop} {l : Lib} (h : Start l) (hd : NoToken l) : LabelInv lost l none where
  mem hc := by rw [h.count] at hc; omega
  file b hb := by rw [hd] at hb; cases hb
  nofile _ := rfl
  full _ h := by cases h

theorem info_label {l : Lib} {now : Int} {i : TokInfo} (h : (answer e l (.slot 1 (.tokenInfo true now))).info = some i) :
    l.bad = false ∧ 0 < l.count ∧ i.label = if l.token.label.headD 0 = 0 then List.replicate 32 32 else l.token.label := by
  have hb : l.bad = false := by
    cases hb : l.bad with
    | false => rfl
    | true => rw [answer, step_bad hb] at h; cases h
  rw [answer, step_resp hb] at h
  by_cases hc : l.count ≤ 0
  · simp only [callBody, if_pos hc] at h; cases h
  · simp only [callBody, if_neg hc] at h
    cases h
    exact ⟨hb, by omega, rfl⟩

theorem shown_bytes {q : Option Bytes} (h : ∀ b, q = some b → b.length = 32) :
    (if (labelBytes q).headD 0 = 0 then List.replicate 32 32 else labelBytes q) = shownLabel q := by
  cases q with
  | none => rfl
  | some b =>
    have := h b rfl
    cases b with
    | nil => cases this
    | cons x b =>
      show (if x = 0 then _ else x :: b) = _
      simp [shownLabel]

/-- **C115**: over the lives of any number of processes on a directory, whenever
`C_GetTokenInfo` answers, the label it reports is that of the last `C_InitToken` that
succeeded, if the files could be read at each `C_Initialize`. -/
theorem c115 {l₀ : Lib} (h₀ : Start l₀) (hd : NoToken l₀) (vs : List Event) (hv : FullLabels vs) (now : Int) (i : TokInfo)
    (hr : AlwaysReadable e l₀ vs) (hi : (answer e (live e l₀ vs) (.slot 1 (.tokenInfo true now))).info = some i) :
    i.label = shownLabel (labelLive e l₀ none vs) := by
  obtain ⟨hb, hc, hl⟩ := info_label hi
  have hinv : LabelInv False _ _ := (h₀.labelInv hd).live vs hv (.inr hr) hb
  obtain ⟨q, hq, hlab⟩ := hinv.mem hc
  have : q = _ := hq.resolve_right (fun h => h.1)
  subst this
  rw [hl, hlab]
  exact shown_bytes hinv.full

/-- C115, whatever files are lost or unreadable: no other label is reported; at worst none. -/
theorem c115_lost {l₀ : Lib} (h₀ : Start l₀) (hd : NoToken l₀) (vs : List Event) (hv : FullLabels vs) (now : Int) (i : TokInfo)
    (hi : (answer e (live e l₀ vs) (.slot 1 (.tokenInfo true now))).info = some i) :
    i.label = shownLabel (labelLive e l₀ none vs) ∨ i.label = shownLabel none := by
  obtain ⟨hb, hc, hl⟩ := info_label hi
  have hinv : LabelInv True _ _ := (h₀.labelInv hd).live vs hv (.inl trivial) hb
  obtain ⟨q, hq, hlab⟩ := hinv.mem hc
  rw [hl, hlab, shown_bytes (hq.full hinv.full)]
  rcases hq with rfl | ⟨_, rfl⟩
  · exact .inl rfl
  · exact .inr rfl

/-! ## A concrete case: `threeLives` of Props/Lives, for which `AlwaysReadable` is shown there. -/

set_option maxRecDepth 20000 in
example : FullLabels Demo.threeLives ∧ labelLive Demo.env Demo.fresh none Demo.threeLives = some Demo.label ∧
    ((answer Demo.env (live Demo.env Demo.fresh Demo.threeLives) (.slot 1 (.tokenInfo true 0))).info.map (·.label)) =
      some (List.replicate 32 65) := by
  refine ⟨?_, by decide, by decide⟩
  intro i pin b h
  simp [Demo.threeLives, Demo.withKey, Demo.setup, openCall, createCall] at h
  rw [h.2.2]
  rfl

end Verif
