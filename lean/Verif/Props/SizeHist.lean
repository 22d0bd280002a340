import Verif.Props.Wrap
import Verif.Props.Ops
import Verif.Props.Begun

/-!
# C68 for histories of the whole interface
-/

namespace Verif

variable {e : Env}

theorem run_noKey_buf (x : Crypto) (s : OpSt) (c : DataCall) :
    (c.run x s none).2.rv ≠ .ok ∧ (c.run x s none).2.rv ≠ .bufferTooSmall := by
  obtain ⟨_, _, _, r4⟩ := run_noKey x s c
  rcases r4 with r4 | r4 | r4 <;> rw [r4] <;> exact ⟨by decide, by decide⟩

/-- A data call that answers the length or that the buffer is too small is one with a key. -/
theorem data_answered {l : Lib} {h : Nat} {c : DataCall} (hi : SInv l)
    (hr : (answer e l (.sess h (.crypt c))).rv = .ok ∨ (answer e l (.sess h (.crypt c))).rv = .bufferTooSmall) :
    l.bad = false ∧ ∃ (s : Session) (o : Obj), s ∈ l.sessions ∧ ∀ c' : DataCall, callBody e l (.sess h (.crypt c')) =
      (l.upd s.handle fun u => { u with op := (c'.run e.crypto s.op (some o)).1 },
        { rv := (c'.run e.crypto s.op (some o)).2.rv, out := some (c'.run e.crypto s.op (some o)).2 }) := by
  unfold answer at hr
  cases hb : l.bad with
  | true => rw [step_bad hb] at hr; rcases hr with hr | hr <;> cases hr
  | false =>
  rw [step_resp hb] at hr
  by_cases hc0 : l.count ≤ 0
  · rw [show callBody e l (.sess h (.crypt c)) = (l, { rv := .cryptokiNotInitialized }) from by simp [callBody, hc0]] at hr
    rcases hr with hr | hr <;> cases hr
  cases hs : getSession l h with
  | none =>
    rw [show callBody e l (.sess h (.crypt c)) = (l, { rv := .sessionHandleInvalid }) from by simp [callBody, hc0, hs]] at hr
    rcases hr with hr | hr <;> cases hr
  | some s =>
    have hbody : ∀ c', callBody e l (.sess h (.crypt c')) = cCrypt e l s c' := by
      intro c'; simp only [callBody, if_neg hc0, hs]; rfl
    rw [hbody] at hr
    unfold cCrypt at hr
    obtain ⟨n1, n2⟩ := run_noKey_buf e.crypto s.op c
    cases hck : currKey l s with
    | null =>
      rw [hck] at hr
      rcases hr with hr | hr
      · exact absurd hr n1
      · exact absurd hr n2
    | freed =>
      rw [hck] at hr
      dsimp only at hr
      split at hr <;> rcases hr with hr | hr <;> cases hr
    | obj o =>
      refine ⟨rfl, s, o, (getSession_handle hs).2.2, fun c' => ?_⟩
      rw [hbody]; unfold cCrypt; rw [hck]

theorem upd_self_eq {l : Lib} {s : Session} (hi : SInv l) (hs : s ∈ l.sessions) :
    (l.upd s.handle fun u => { u with op := s.op }) = l := by
  have := upd_self hi hs
  unfold Lib.upd at this ⊢
  dsimp only at this
  rw [this]

/-- **C68** for histories of the whole interface.  Whatever happened before: a data call that only asks for the length
and succeeds leaves the library as it was, all sessions included, writes nothing and reports a length, and the same
call with a buffer of at least that length is not refused as too small; a call that is refused as too small leaves the
library as it was, writes nothing, and asking for the length then reports more than the buffer had. -/
theorem c68_history {l₀ : Lib} (h₀ : Start l₀) (cs : List Call) (h : Nat) (c : DataCall) :
    let l := run e l₀ cs
    let r := step e l (.sess h (.crypt c))
    ((∃ n, c.buf = .query n) → r.2.rv = .ok →
      r.1 = l ∧ ∃ o len, r.2.out = some o ∧ o.wr = [] ∧ o.len = some len ∧
        ∀ k, len ≤ k → (answer e l (.sess h (.crypt (c.withBuf (.buf k))))).rv ≠ .bufferTooSmall) ∧
    (r.2.rv = .bufferTooSmall →
      r.1 = l ∧ (∃ o, r.2.out = some o ∧ o.wr = [] ∧ o.len = none) ∧
        ∃ m k, c.buf = .buf m ∧ m < k ∧
          (answer e l (.sess h (.crypt (c.withBuf (.query 0))))).rv = .ok ∧
          (answer e l (.sess h (.crypt (c.withBuf (.query 0))))).out = some { rv := .ok, len := some k }) := by
  intro l r
  have hi : SInv l := h₀.sinv.run e cs
  refine ⟨?_, ?_⟩
  · rintro ⟨n, hq⟩ hok
    obtain ⟨hb, s, o, hs, hall⟩ := data_answered hi (.inl hok)
    have hr2 : r.2 = (callBody e l (.sess h (.crypt c))).2 := step_resp hb _
    rw [hr2, hall] at hok
    have hst : r = callBody e l (.sess h (.crypt c)) := step_eq hb (by rw [hall, hok]; decide)
    obtain ⟨h1, h2, len, h3, h4⟩ := (c68_size_query e.crypto s.op (some o) c n).1 hq hok
    rw [hst, hall]
    refine ⟨?_, _, len, rfl, h2, h3, fun k hk => ?_⟩
    · show (l.upd s.handle fun u => { u with op := (c.run e.crypto s.op (some o)).1 }) = l
      rw [h1]; exact upd_self_eq hi hs
    · unfold answer
      rw [step_resp hb, hall]
      exact h4 k hk
  · intro hts
    obtain ⟨hb, s, o, hs, hall⟩ := data_answered hi (.inr hts)
    have hr2 : r.2 = (callBody e l (.sess h (.crypt c))).2 := step_resp hb _
    rw [hr2, hall] at hts
    have hst : r = callBody e l (.sess h (.crypt c)) := step_eq hb (by rw [hall, hts]; decide)
    obtain ⟨h1, h2, h3, m, k, h4, h5, h6⟩ := (c68_size_query e.crypto s.op (some o) c 0).2 hts
    rw [hst, hall]
    refine ⟨?_, ⟨_, rfl, h2, h3⟩, m, k, h4, h5, ?_⟩
    · show (l.upd s.handle fun u => { u with op := (c.run e.crypto s.op (some o)).1 }) = l
      rw [h1]; exact upd_self_eq hi hs
    · unfold answer
      rw [step_resp hb, hall, h6]
      exact ⟨rfl, rfl⟩

set_option maxRecDepth 20000 in
/-- Non-vacuity of `c68_history`: the length of an AES-CBC encryption, and a buffer that is too small. -/
example :
    let l := run Demo.env Demo.fresh (Demo.setup ++ [createCall 65538 (Demo.aesTmpl false 1),
      .sess 65538 (.cryptInit .encrypt (some (.aesCbc, .raw Demo.iv)) 1)])
    Start Demo.fresh ∧
    (answer Demo.env l (.sess 65538 (.crypt (.encrypt (some (List.replicate 32 7)) (.query 0) 0)))).out =
      some { rv := .ok, len := some 32 } ∧
    (answer Demo.env l (.sess 65538 (.crypt (.encrypt (some (List.replicate 32 7)) (.buf 31) 0)))).rv = .bufferTooSmall ∧
    (answer Demo.env l (.sess 65538 (.crypt (.encrypt (some (List.replicate 32 7)) (.buf 32) 0)))).rv = .ok := by
  refine ⟨Demo.fresh_start, by decide, by decide, by decide⟩

end Verif
