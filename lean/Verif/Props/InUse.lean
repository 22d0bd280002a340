import Verif.Proofs.Alive
/-!
# Keys in use

C55: an operation never works with a key that has been freed.
-/
namespace Verif

variable {e : Env}

/-- **C55, the part that holds**: in a history that destroys no key some session was last
initialised with, every open session's key exists. -/
theorem c55_partial {l₀ : Lib} (h₀ : Start l₀) (cs : List Call) (hc : Careful e l₀ cs) (h : Nat) :
    KeyAlive (run e l₀ cs) h := by
  have hi : SInv (run e l₀ cs) := h₀.sinv.run e cs
  have ha : Alive (run e l₀ cs) := Alive.run h₀.sinv (by intro s hs; rw [h₀.sessions] at hs; cases hs) cs hc
  intro s hs u hu
  obtain ⟨hsh, hsu, hsm⟩ := getSession_handle hs
  have key : ∀ os : List Obj, u ∈ uids os → ∃ o ∈ os, o.uid = u := by
    intro os hm
    obtain ⟨o, ho, he⟩ := List.mem_map.mp hm
    exact ⟨o, ho, he⟩
  unfold sessObjs tokenObjs
  rw [hs]
  simp only [Option.map_some, Option.getD_some]
  rcases ha s hsm u hu with h1 | h1
  · obtain ⟨o, ho, he⟩ := key _ h1
    exact ⟨o, List.mem_append_left _ ho, he⟩
  · obtain ⟨o, ho, he⟩ := key _ h1
    exact ⟨o, List.mem_append_right _ ho, he⟩

/-- `KeyAlive` says that the session's key pointer does not point to freed memory, as the
model has it. -/
theorem keyAlive_iff {l : Lib} {h : Nat} {s : Session} (hs : getSession l h = some s) :
    KeyAlive l h ↔ currKey l s ≠ .freed := by
  have hk : (∃ u, s.curr = some u ∧ ¬ ∃ o ∈ s.objs ++ l.token.objs, o.uid = u) ↔ currKey l s = .freed := by
    unfold currKey
    cases hcur : s.curr with
    | none => simp
    | some u =>
      simp only [Option.some.injEq, exists_eq_left']
      cases hf : (s.objs ++ l.token.objs).find? (fun o => o.uid == u) with
      | none =>
        simp only [iff_true]
        rintro ⟨o, ho, he⟩
        have := List.find?_eq_none.mp hf o ho
        simp [he] at this
      | some o =>
        simp only [reduceCtorEq, iff_false, Decidable.not_not]
        exact ⟨o, List.mem_of_find?_eq_some hf, by simpa using List.find?_some hf⟩
  constructor
  · intro h1 hfr
    obtain ⟨u, h2, h3⟩ := hk.mpr hfr
    have := h1 s hs u h2
    unfold sessObjs tokenObjs at this
    rw [hs] at this
    exact h3 this
  · intro h1 s' hs' u hu
    rw [hs] at hs'; cases hs'
    unfold sessObjs tokenObjs
    rw [hs]
    apply Decidable.byContradiction
    intro hn
    exact h1 (hk.mp ⟨u, hu, hn⟩)

namespace Demo

/-- An AES key is made, an encryption started with it. -/
def started : List Call := setup ++ [createCall 65538 (aesTmpl false 1),
  .sess 65538 (.cryptInit .encrypt (some (.aesCbc, .raw (List.replicate 16 0))) 1)]

/-- **C55 fails**: the key is destroyed, the operation then reads freed memory. -/
theorem c55_violated :
    rvs env fresh (started ++ [.sess 65538 (.destroy 1),
      .sess 65538 (.crypt (.encryptUpdate (some (List.replicate 16 7)) (.buf 16)))]) =
      List.replicate 10 .ok ++ [.ub] := by decide

/-- The same with the key destroyed in one session and used in another. -/
theorem c55_violated_other :
    rvs env fresh (setup ++ [createCall 65538 (aesTmpl true 1), openCall true,
      .sess 65537 (.cryptInit .encrypt (some (.aesCbc, .raw (List.replicate 16 0))) (2 ^ 28 + 1)),
      .sess 65538 (.destroy (2 ^ 28 + 1)),
      .sess 65537 (.crypt (.encryptUpdate (some (List.replicate 16 7)) (.buf 16)))]) =
      List.replicate 11 .ok ++ [.ub] := by decide

/-- Non-vacuity: a careful history with an operation in progress, in which another object
is destroyed. -/
example : Careful env fresh (started ++ [createCall 65538 (aesTmpl false 2), .sess 65538 (.destroy 2)]) ∧
    (getSession (run env fresh (started ++ [createCall 65538 (aesTmpl false 2), .sess 65538 (.destroy 2)]))
      65538).map (·.curr) = some (some 1) := by
  refine ⟨⟨trivial, fun h => ?_, trivial, trivial, trivial, trivial, trivial, trivial, trivial, trivial, ?_, trivial⟩,
    by decide⟩
  · apply Classical.byContradiction
    intro hne
    cases hs : getSession (step env fresh .cInit).1 h with
    | none => exact hne hs
    | some s =>
      obtain ⟨_, h2, h3⟩ := getSession_handle hs
      have : ∀ t ∈ (step env fresh .cInit).1.sessions, t.use = .no := by decide
      exact h2 (this s h3)
  · intro s o hs ho hu
    obtain ⟨k, t, ht, hc⟩ := hu
    have hall : ∀ t ∈ (run env fresh (started ++ [createCall 65538 (aesTmpl false 2)])).sessions,
        t.curr = none ∨ t.curr = some 1 := by decide
    obtain ⟨_, _, h3⟩ := getSession_handle ht
    have h4 := hall t h3
    have ho' : (getSession (run env fresh (started ++ [createCall 65538 (aesTmpl false 2)])) 65538).bind
        (fun s => (findObj (run env fresh (started ++ [createCall 65538 (aesTmpl false 2)])) s 2).map (·.uid)) =
        some 2 := by decide
    have hs' : getSession (run env fresh (started ++ [createCall 65538 (aesTmpl false 2)])) 65538 = some s := hs
    have hf' : findObj (run env fresh (started ++ [createCall 65538 (aesTmpl false 2)])) s 2 = some o := ho
    rw [hs'] at ho'
    simp only [Option.bind_some, hf', Option.map_some, Option.some.injEq] at ho'
    rw [hc, ho'] at h4
    rcases h4 with h4 | h4 <;> simp at h4

end Demo

end Verif
