import Verif.Proofs.Onto
import Verif.Props.Lives
import Verif.Props.Durable

/-!
# C118: a token that is initialised again tells nothing of what it held

Everything else of the process — the number of `C_Initialize` calls, the list of sessions, the
random generator — is the same in both runs that are compared; the token and the directory are not.
-/

namespace Verif

variable {e : Env}

/-- A file of the token does not go away again. -/
theorem token_file_stays {l : Lib} (c : Call) (h : l.disk (.token, 0) ≠ none) : (step e l c).1.disk (.token, 0) ≠ none := by
  have key : (callBody e l c).1.disk (.token, 0) ≠ none := by
    by_cases h1 : c = .cInit
    · subst h1
      unfold callBody cInitialize
      dsimp only
      split <;> exact h
    by_cases h2 : c = .cFinal
    · subst h2
      unfold callBody cFinalize
      dsimp only
      split
      · have := store_token_file e { l with count := l.count - 1 }
        show (Lib.store e { l with count := l.count - 1 }).1.disk (.token, 0) ≠ none
        rw [this]
        exact Option.some_ne_none _
      · exact h
    rcases file_callBody (e := e) l c h1 h2 with ⟨h3, _⟩ | ⟨r, h3, _⟩
    · rw [h3]; exact h
    · rw [h3]; exact Option.some_ne_none _
  unfold step
  split
  · exact h
  dsimp only
  split <;> exact key

/-- Further files in the directory are never noticed, if those of the token are all there. -/
theorem heard_on (vs : List Event) : ∀ {l : Lib} {d : Disk}, Ext d l.disk → l.disk (.token, 0) ≠ none → AlwaysReadable e l vs →
    heard e (l.on d) vs = heard e l vs := by
  induction vs with
  | nil => exact fun _ _ _ => rfl
  | cons v vs ih =>
    intro l d h ht hr
    cases v with
    | call c =>
      obtain ⟨d', h1, h2⟩ := onto_step (e := e) h c fun hc => load_ext h ht (hr.1 (by rw [hc]))
      have h3 : answer e (l.on d) c = answer e l c := (congrArg Prod.snd h2 :)
      have h4 : (step e (l.on d) c).1 = (step e l c).1.on d' := (congrArg Prod.fst h2 :)
      unfold heard
      rw [h3, h4, ih h1 (token_file_stays c ht) hr.2]
    | killed =>
      unfold heard
      exact ih (l := Event.killed.next e l) (d := d) h ht hr.2

/-- `C_InitToken` leaves nothing of the token that was there, apart from files. -/
theorem initToken_clean {l : Lib} {pin label : Bytes} (hok : (answer e l (initTokenCall pin label)).rv = .ok) :
    Onto (step e l (initTokenCall pin label)) (step e (brandNew l) (initTokenCall pin label)) ∧
    (step e (brandNew l) (initTokenCall pin label)).1.disk (.token, 0) =
      some (wrToken (step e (brandNew l) (initTokenCall pin label)).1.token.toRec) ∧
    (step e (brandNew l) (initTokenCall pin label)).1.token.objs = [] := by
  have hb : l.bad = false := by
    cases hb : l.bad with
    | false => rfl
    | true =>
      unfold answer step at hok
      rw [if_pos hb] at hok
      cases hok
  have hc : ¬ l.count ≤ 0 := by
    intro hc
    unfold answer step at hok
    rw [if_neg (by rw [hb]; exact Bool.false_ne_true)] at hok
    unfold initTokenCall callBody at hok
    dsimp only at hok
    rw [if_pos hc] at hok
    dsimp only at hok
    split at hok <;> cases hok
  have body : ∀ m : Lib, m.count = l.count → callBody e m (initTokenCall pin label) = initToken e m (some pin) (some label) := by
    intro m hm
    unfold initTokenCall callBody
    dsimp only
    rw [hm, if_neg hc, if_neg (by decide)]
    rfl
  let m : Lib := { l with token := { label := labelOf label, init := true } }
  have h1 : callBody e l (initTokenCall pin label) = pinSet (setSoPin e m pin) := by
    rw [body l rfl]
    have hok' : (initToken e l (some pin) (some label)).2.rv = .ok := by
      unfold answer step at hok
      rw [if_neg (by rw [hb]; exact Bool.false_ne_true), body l rfl] at hok
      dsimp only at hok
      split at hok
      · rename_i h; rw [h] at hok; cases hok
      · exact hok
    unfold initToken at hok' ⊢
    dsimp only at hok' ⊢
    split at hok'
    · cases hok'
    rename_i g1
    rw [if_neg g1]
    split at hok'
    · cases hok'
    rename_i g2
    rw [if_neg g2]
    split at hok'
    · cases hok'
    rename_i g3
    rw [if_neg g3]
  have hp : pinLenOk pin = true := by
    cases hp : pinLenOk pin with
    | true => rfl
    | false =>
      unfold answer step at hok
      rw [if_neg (by rw [hb]; exact Bool.false_ne_true), body l rfl] at hok
      unfold initToken at hok
      dsimp only at hok
      rw [hp] at hok
      cases hok
  have h2 : callBody e (brandNew l) (initTokenCall pin label) = pinSet (setSoPin e (m.on fun _ => none) pin) := by
    rw [body (brandNew l) rfl]
    unfold initToken brandNew
    dsimp only
    rw [hp]
    rfl
  have h3 : Onto (pinSet (setSoPin e m pin)) (pinSet (setSoPin e (m.on fun _ => none) pin)) :=
    (onto_soPin (l := m.on fun _ => none) (d := l.disk) (fun f hf => absurd rfl hf) pin).pin
  have hub : ∀ r : Lib × Bool, (pinSet r).2.rv ≠ .ub := by
    intro r
    unfold pinSet
    dsimp only
    split <;> exact RV.noConfusion
  have s1 : step e l (initTokenCall pin label) = pinSet (setSoPin e m pin) := by
    unfold step
    rw [if_neg (by rw [hb]; exact Bool.false_ne_true), h1]
    dsimp only
    rw [if_neg (hub _)]
  have s2 : step e (brandNew l) (initTokenCall pin label) = pinSet (setSoPin e (m.on fun _ => none) pin) := by
    unfold step
    have hb' : (brandNew l).bad = false := hb
    rw [if_neg (by rw [hb']; exact Bool.false_ne_true), h2]
    dsimp only
    rw [if_neg (hub _)]
  rw [s1, s2]
  refine ⟨h3, ?_, rfl⟩
  unfold pinSet setSoPin
  dsimp only
  rw [store_token_file]
  rfl

/-- **C118.** Once `C_InitToken` has succeeded, all answers, in this process and in those that come after it, are those that
would be given had the token never been used and the directory been empty. What is missing: it is assumed that the
files the new owner's processes write can be read again whenever `C_Initialize` is called — without that an
old file is noticed (`Demo.c118_violated`) —, and the old files are still there (`Demo.c118_violated_files`). -/
theorem c118_partial (l : Lib) (pin label : Bytes) (vs : List Event)
    (hok : (answer e l (initTokenCall pin label)).rv = .ok)
    (hr : AlwaysReadable e (step e (brandNew l) (initTokenCall pin label)).1 vs) :
    heard e l (.call (initTokenCall pin label) :: vs) = heard e (brandNew l) (.call (initTokenCall pin label) :: vs) := by
  obtain ⟨⟨d, h1, h2⟩, h3, _⟩ := initToken_clean hok
  have h4 : answer e l (initTokenCall pin label) = answer e (brandNew l) (initTokenCall pin label) := (congrArg Prod.snd h2 :)
  have h5 : (step e l (initTokenCall pin label)).1 = (step e (brandNew l) (initTokenCall pin label)).1.on d :=
    (congrArg Prod.fst h2 :)
  unfold heard
  rw [h4, h5, heard_on vs h1 (by rw [h3]; exact Option.some_ne_none _) hr]

/-- The process has the same number of initialisations, sessions and random numbers to come; the tokens
and the directories may differ. -/
def SameProcess (l l' : Lib) : Prop :=
  l.count = l'.count ∧ l.sessions = l'.sessions ∧ l.uid = l'.uid ∧ l.rng = l'.rng ∧ l.bad = l'.bad

/-- **C118** for two tokens: whatever the two held, after the same `C_InitToken` they cannot be told apart. -/
theorem c118_two_partial (l l' : Lib) (hs : SameProcess l l') (pin label : Bytes) (vs : List Event)
    (hok : (answer e l (initTokenCall pin label)).rv = .ok) (hok' : (answer e l' (initTokenCall pin label)).rv = .ok)
    (hr : AlwaysReadable e (step e (brandNew l) (initTokenCall pin label)).1 vs) :
    heard e l (.call (initTokenCall pin label) :: vs) = heard e l' (.call (initTokenCall pin label) :: vs) := by
  have h : brandNew l = brandNew l' := by
    obtain ⟨h1, h2, h3, h4, h5⟩ := hs
    unfold brandNew
    rw [h1, h2, h3, h4, h5]
  rw [c118_partial l pin label vs hok hr, c118_partial l' pin label vs hok' (h ▸ hr), h]

/-- **C118** without a restart: calls other than `C_Initialize` by the process that called `C_InitToken`. Nothing is assumed of files. -/
theorem c118_process (l : Lib) (pin label : Bytes) (cs : List Call) (hcs : ∀ c ∈ cs, c ≠ .cInit)
    (hok : (answer e l (initTokenCall pin label)).rv = .ok) :
    heard e l (.call (initTokenCall pin label) :: cs.map .call) =
      heard e (brandNew l) (.call (initTokenCall pin label) :: cs.map .call) := by
  refine c118_partial l pin label _ hok ?_
  generalize (step e (brandNew l) (initTokenCall pin label)).1 = m
  induction cs generalizing m with
  | nil => exact trivial
  | cons c cs ih =>
    refine ⟨fun h => ?_, ih (fun c' h => hcs c' (List.mem_cons_of_mem _ h)) _⟩
    injection h with h
    exact absurd h (hcs c List.mem_cons_self)

/-- **C118** for a process that ends right after `C_InitToken`: the next one finds the token empty, whatever files there are. -/
theorem c118_restart (hh : HashLen e) (hrl : RandLen e) (l : Lib) (pin label : Bytes) (cs : List Call)
    (hcs : ∀ c ∈ cs, c ≠ .cInit) (hok : (answer e l (initTokenCall pin label)).rv = .ok) :
    heard e l (.call (initTokenCall pin label) :: .killed :: .call .cInit :: cs.map .call) =
      heard e (brandNew l) (.call (initTokenCall pin label) :: .killed :: .call .cInit :: cs.map .call) := by
  refine c118_partial l pin label _ hok ⟨fun h => Event.noConfusion h, fun _ => ?_, ?_⟩
  · obtain ⟨_, h2, h3⟩ := initToken_clean hok
    have hs : Shape (step e (brandNew l) (initTokenCall pin label)).1.token := by
      have h := shape_callBody (e := e) hh hrl (l := brandNew l) Shape.default (initTokenCall pin label)
      unfold step
      split
      · exact Shape.default
      dsimp only
      split <;> exact h
    generalize step e (brandNew l) (initTokenCall pin label) = m at h2 h3 hs
    have hrd := (readsBack_tok m.1.token hs (by rw [h3]; decide)).1 []
    rw [List.append_nil] at hrd
    refine .inr ⟨_, _, [], [], h2, hrd, ?_⟩
    have ht : m.1.token.toRec.stored.types = [] := by
      unfold TokenRec.stored Token.toRec
      rw [h3]
      rfl
    rw [ht]
    rfl
  · generalize Event.next e (Event.next e _ _) _ = m
    induction cs generalizing m with
    | nil => exact trivial
    | cons c cs ih =>
      refine ⟨fun h => ?_, ih (fun c' h => hcs c' (List.mem_cons_of_mem _ h)) _⟩
      injection h with h
      exact absurd h (hcs c List.mem_cons_self)

namespace Demo

/-- The former owner leaves a certificate. -/
def formerCert : List Call := setup ++ [createCall 65538 (certTmpl [1, 2, 3]), closeAllCall]

/-- The former owner leaves a key. -/
def formerKey : List Call := withKey ++ [closeAllCall]

/-- The new owner sets the PINs and makes an object; the process ends, and the next one logs in. -/
def newOwner (t : List Entry) : List Event :=
  [.call (openCall true), .call (loginCall 65538 .so soPin 0), .call (.sess 65538 (.initPin (some newPin))),
   .call (.sess 65538 .logout), .call (loginCall 65538 .user newPin 0), .call (createCall 65538 t), .killed, .call .cInit,
   .call (openCall true), .call (loginCall 65538 .user newPin 0)]

set_option maxRecDepth 40000 in
/-- Non-vacuity of `c118_partial`: the former owner's key, then a key of the new one, over a restart. -/
example : (answer env (Verif.run env fresh formerKey) (initTokenCall soPin label)).rv = .ok ∧
    AlwaysReadable env (Verif.step env (brandNew (Verif.run env fresh formerKey)) (initTokenCall soPin label)).1
      (newOwner (openTmpl true 9)) ∧
    (heard env (Verif.run env fresh formerKey) (.call (initTokenCall soPin label) :: newOwner (openTmpl true 9))).map (·.rv) =
      List.replicate 10 .ok := by
  refine ⟨by decide +kernel, ?_, by decide +kernel⟩
  repeat' constructor
  all_goals first
    | exact fun h => Event.noConfusion h
    | exact fun _ => by decide +kernel
    | exact fun h => by injection h with h; cases h

set_option maxRecDepth 40000 in
/-- C118 is violated by an object that could not be stored: an empty certificate of the new owner makes the token unreadable,
unless the former owner had a certificate there, whose file then fills the gap. -/
theorem c118_violated :
    let vs := .call (initTokenCall soPin label) :: newOwner (certTmpl [])
    (heard env (Verif.run env fresh formerCert) vs).map (·.rv) = List.replicate 10 .ok ∧
    (heard env (brandNew (Verif.run env fresh formerCert)) vs).map (·.rv) =
      List.replicate 9 .ok ++ [.userPinNotInitialized] := by
  decide +kernel

set_option maxRecDepth 40000 in
/-- C118 is violated in the directory: the file with the former owner's encrypted key is still there. -/
theorem c118_violated_files :
    let l := Verif.run env fresh formerKey
    let l' := (Verif.step env l (initTokenCall soPin label)).1
    (answer env l (initTokenCall soPin label)).rv = .ok ∧
    (l.disk (.symmKey, 0)).isSome = true ∧ l'.disk (.symmKey, 0) = l.disk (.symmKey, 0) ∧
    l'.disk (.object, 0) = l.disk (.object, 0) := by
  decide +kernel

end Demo

end Verif
