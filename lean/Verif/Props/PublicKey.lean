import Verif.Proofs.PublicKey
import Verif.Props.KeyKept
import Verif.Props.Stale
import Verif.Props.Find

/-!
# Public keys on the token (C120)
-/

namespace Verif

variable {e : Env}

theorem publicKey_of_shown {o p : Obj} (h : o.shown = p.shown) (ho : o.IsPublicKey) : p.IsPublicKey := by
  have : o.shown.IsPublicKey := ho
  rw [h] at this; exact this

theorem inj_of_nodup {α β : Type} {f : α → β} {os : List α} (hnd : (os.map f).Nodup) {p q : α} (hp : p ∈ os) (hq : q ∈ os)
    (he : f p = f q) : p = q := by
  induction os with
  | nil => cases hp
  | cons a os ih =>
    obtain ⟨n1, n2⟩ := List.nodup_cons.mp hnd
    have hno : ∀ x ∈ os, f x ≠ f a := fun x hx hxa => n1 (List.mem_map.mpr ⟨x, hx, hxa⟩)
    rcases List.mem_cons.mp hp with hpa | hp <;> rcases List.mem_cons.mp hq with hqa | hq
    · rw [hpa, hqa]
    · exact absurd (by rw [← he, hpa]) (hno q hq)
    · exact absurd (by rw [he, hqa]) (hno p hp)
    · exact ih n2 hp hq

/-- An object just made on the token keeps the key it has. -/
theorem made_public (hh : HashLen e) (hr : RandLen e) {l₀ : Lib} (h₀ : Start l₀) (hd : NoToken l₀)
    (cs : List Call) (h : Nat) (c : SessCall) (k : Nat) (hb : BoolToken (cs ++ [.sess h c])) (hn : 2 * (cs.length + 1) < 2 ^ 28)
    (hcr : c.creates ≠ []) (hok : (answer e (run e l₀ cs) (.sess h c)).rv = .ok)
    (hhd : (answer e (run e l₀ cs) (.sess h c)).handle = some k)
    {o : Obj} (ho : o ∈ tokenObjs (run e l₀ (cs ++ [.sess h c]))) (hk : o.handle = k) (hpub : o.IsPublicKey)
    (hont : handleOnToken k = true) :
    PubKept e.store (!o.encoded) o.shown o := by
  obtain ⟨hnew, hne⟩ := c18_new hh hr h₀ hd cs h c hb hn hok
  have hfresh := (hnew k (.inl hhd)).1
  have hb1 : BoolToken cs := fun d hd => hb d (List.mem_append_left _ hd)
  obtain ⟨_, _, hx'⟩ := reach_inv hh hr h₀ hd (cs ++ [.sess h c]) hb (by simp only [List.length_append, List.length_cons, List.length_nil]; omega)
  have hrun : run e l₀ (cs ++ [.sess h c]) = (step e (run e l₀ cs) (.sess h c)).1 := by rw [run_append]; rfl
  rw [hrun] at ho hx'
  generalize run e l₀ cs = l at *
  obtain ⟨hbad, hpos, s, hs, hstep⟩ := sess_step hok
  have hpos' : 0 < (step e l (.sess h c)).1.count := by
    have := (names_mem (hnew k (.inl hhd)).2).2.1
    rwa [hrun] at this
  have htokH : ∀ p ∈ l.token.objs, p.handle ≠ k := fun p hp hpk => hfresh (mem_names hbad hpos hs hpk (by rw [hont]; exact hp))
  unfold HandleInv at hx'
  rw [if_pos hpos'] at hx'
  unfold answer at hok hhd hne
  rw [hstep] at ho hok hhd hne hx'
  have huniq : ∀ {p : Obj}, p ∈ (sessCall e l s c).1.token.objs → p.handle = k → p = o := by
    intro p hp hpk
    have hnd := hx'.tok.nodup
    rw [List.map_map] at hnd
    exact inj_of_nodup (f := Prod.fst ∘ Obj.hb) hnd hp ho (hpk.trans hk.symm)
  have hb' : ∀ t ∈ c.creates, TokOk (· ≤ 1) t := boolToken_tokOk (cs := cs) hb
  suffices hkept : ∃ b, o.keyBytes e.store = some b ∧ o.keyData = some b from
    ⟨rfl, hpub, fun h => by simpa using h, hkept⟩
  change o ∈ (sessCall e l s c).1.token.objs at ho
  rcases creates_made (e := e) l s c hcr hb' with hm | ⟨hm, _⟩
  · generalize sessCall e l s c = r at *
    cases hm with
    | kept h1 h2 h3 => rw [h2 hok] at hhd; cases hhd
    | @one l₁ l' on k' o' r h1 h2 h3 h4 h5 h6 =>
      have : k' = k := Option.some.inj (h5.symm.trans hhd)
      subst this
      by_cases hon : on = 0
      · exfalso
        rcases (sessAdd_some h2).2 with ⟨g, _⟩ | ⟨_, _, _, g⟩
        · exact g hon
        · rw [g] at ho
          have ho : o ∈ l₁.token.objs := ho
          rw [h1.tok] at ho
          exact htokH o ho hk
      · obtain ⟨p, hp, hpk, hpp⟩ := add_head hon h2
        rw [huniq hp hpk] at hpp
        exact hpp hpub
  · generalize sessCall e l s c = r at *
    cases hm with
    | kept h1 h2 => exact absurd hok h2
    | broken h1 h2 => exact absurd hok h2
    | ub h1 => rw [hok] at h1; cases h1
    | @two l₁ l₂ l' s₁ on₁ on₂ k₁ k₂ o₁ o₂ r h1 h2 h3 h4 h5 h6 h7 h8 h9 h10 h11 =>
      have : k₁ = k := Option.some.inj (h10.symm.trans hhd)
      subst this
      have hkk : k₁ ≠ k₂ := hne k₁ k₂ h10 h11
      have hin : on₁ = 0 → ∀ p ∈ l₂.token.objs, p.handle ≠ k₁ := by
        intro hon p hp
        rcases (sessAdd_some h2).2 with ⟨g, _⟩ | ⟨_, _, _, g⟩
        · exact absurd hon g
        · rw [g] at hp
          have hp : p ∈ l₁.token.objs := hp
          rw [h1.tok] at hp
          exact htokH p hp
      by_cases hon : on₁ = 0
      · exfalso
        rcases (sessAdd_some h6).2 with ⟨_, _, _, g, _⟩ | ⟨_, _, _, g⟩
        · have : o.view ∈ l'.token.objs.map Obj.view := List.mem_map_of_mem ho
          rw [g] at this
          rcases List.mem_cons.mp this with g | g
          · have : o.view.handle = k₂ := by rw [g]; rfl
            exact hkk (hk.symm.trans this)
          · obtain ⟨p, hp, hpv⟩ := List.mem_map.mp g
            exact hin hon p hp ((congrArg (fun o : Obj => o.handle) hpv).trans hk)
        · rw [g] at ho
          exact hin hon o ho hk
      · obtain ⟨p, hp, hpk, hpp⟩ := add_head hon h2
        have hQ : StoreStable e.store k₁ (fun q => q.shown = p.shown ∧ (p.IsPublicKey → q = p)) :=
          { store := by
              intro key r q i ⟨q1, q2⟩
              refine ⟨(shown_of_view (storeObj_view _ _ _ _ _)).trans q1, fun hpp' => ?_⟩
              obtain ⟨b, _, hb⟩ := hpp hpp'
              rw [q2 hpp', storeObj_unchanged _ _ _ hb]
            handle := fun q hq => by
              have : q.shown.handle = p.shown.handle := congrArg (fun o : Obj => o.handle) hq.1
              exact this.trans hpk }
        obtain ⟨q, hq, hq1, hq2⟩ := (hQ.add_eq h6).go ⟨p, hp, rfl, fun _ => rfl⟩
        have hqo := huniq hq (by
          have : q.shown.handle = p.shown.handle := congrArg (fun o : Obj => o.handle) hq1
          exact this.trans hpk)
        rw [hqo] at hq1 hq2
        have hppub := publicKey_of_shown hq1 hpub
        rw [hq2 hppub]
        exact hpp hppub

/-- **C120**, within one process: a public key that was made on the token is there for everybody.
After a call that made it, any calls are made by anybody, logins and logouts with any PIN
and changes of PINs among them, except those that change or destroy the key, initialise the token
or end the library.  Then in every session that is open, whoever is logged in or nobody, the
handle names the key, it is the same key, and every attribute reads as when it was made; and a
search for attributes that it has finds it, if one without a login would have found it then.
Missing: after the library has been ended and started again the key cannot be used before the
user has logged in (`Demo.c120_violated`). -/
theorem c120_partial (hx : StoreLaws e.store) (hh : HashLen e) (hr : RandLen e) {l₀ : Lib} (h₀ : Start l₀)
    (hd : NoToken l₀) (cs ds : List Call) (h h' : Nat) (c : SessCall) (k : Nat) (o : Obj)
    (hb : BoolToken (cs ++ [.sess h c] ++ ds)) (hn : 2 * (cs ++ [Call.sess h c] ++ ds).length < 2 ^ 28)
    (hcr : c.creates ≠ []) (hok : (answer e (run e l₀ cs) (.sess h c)).rv = .ok)
    (hhd : (answer e (run e l₀ cs) (.sess h c)).handle = some k) (hk : handleOnToken k = true)
    (ha : Addressed (run e l₀ (cs ++ [.sess h c])) h k o) (hpub : o.IsPublicKey)
    (hds : Passed e k (run e l₀ (cs ++ [.sess h c])) ds)
    (ho : IsOpen e (run e l₀ (cs ++ [.sess h c] ++ ds)) h') :
    (∃ o', Addressed (run e l₀ (cs ++ [.sess h c] ++ ds)) h' k o' ∧ o'.shown = o.shown) ∧
    (∀ o', Addressed (run e l₀ (cs ++ [.sess h c] ++ ds)) h' k o' → o'.data = o.data) ∧
    (∀ t, answer e (run e l₀ (cs ++ [.sess h c] ++ ds)) (readCall h' k t) =
      answer e (run e l₀ (cs ++ [.sess h c])) (readCall h k t)) ∧
    (Shown .pub o → ∀ w, Matching e.key o w → k ∈ hits e (run e l₀ (cs ++ [.sess h c] ++ ds)) h' w) := by
  have hb1 : BoolToken (cs ++ [.sess h c]) := fun d hd => hb d (List.mem_append_left _ hd)
  rw [List.length_append] at hn
  have hn1 : 2 * (cs ++ [Call.sess h c]).length < 2 ^ 28 := by omega
  obtain ⟨hi, hc, hx1⟩ := reach_inv hh hr h₀ hd _ hb1 hn1
  obtain ⟨hi', _, hx2⟩ := reach_inv hh hr h₀ hd _ hb (by rw [List.length_append]; omega)
  have hmade : o ∈ tokenObjs (run e l₀ (cs ++ [.sess h c])) → PubKept e.store (!o.encoded) o.shown o := fun hm =>
    made_public hh hr h₀ hd cs h c k hb1 (by simpa using hn1) hcr hok hhd hm ha.2 hpub hk
  have hnames := ((c18_new hh hr h₀ hd cs h c hb1 (by simpa using hn1) hok).1 k (.inl hhd)).2
  rw [List.length_append] at hx2
  rw [run_append _ _ (cs ++ _) ds] at *
  generalize run e l₀ (cs ++ [.sess h c]) = l at *
  obtain ⟨hbad, hcnt, s, hs, _⟩ := names_mem hnames
  obtain ⟨hbad', s', hs'⟩ := (isOpen_iff hi').mp ho
  have hcnt' := count_pos_of_open hi' hs'
  unfold HandleInv at hx1 hx2
  rw [if_pos hcnt] at hx1
  rw [if_pos hcnt'] at hx2
  have hfind := addressed_find hx1 (by omega) hs ha
  obtain ⟨p1, p2, _⟩ := findObj_parts hfind
  have hstart : Somewhere (PubKept e.store (!o.encoded) o.shown) l.token.objs := ⟨o, p2 hk, hmade (p2 hk)⟩
  have hds' : Passed e o.shown.handle l ds := by
    rw [show o.shown.handle = o.handle from rfl, p1]; exact hds
  obtain ⟨o', ho', hkept⟩ := run_pub hx hh hr ds hstart hcnt hc hi hbad' hds'
  have hv := hkept.shown
  have hh' : o'.handle = k := by
    have : o'.shown.handle = o.shown.handle := congrArg (·.handle) hv
    exact this.trans p1
  have ha' : Addressed (run e l ds) h' k o' := ⟨List.mem_append_right _ ho', hh'⟩
  have hfind' := addressed_find hx2 (by omega) hs' ha'
  refine ⟨⟨o', ha', hv⟩, fun q hq => ?_, fun t => ?_, fun hsh w hw => ?_⟩
  · rw [addressed_unique hx2 (by omega) hs' hq ha']
    have : o'.shown.data = o.shown.data := congrArg (fun o : Obj => o.data) hv
    exact this
  · unfold readCall answer
    rw [step_resp hbad, step_resp hbad']
    simp only [callBody, hs, hs', if_neg (show ¬ l.count ≤ 0 by omega), if_neg (show ¬ (run e l ds).count ≤ 0 by omega),
      sessCall, cGetAttr, hfind, hfind']
    rw [← shown_getAttributeValue e.key o', hv, shown_getAttributeValue]
  · unfold hits
    refine List.mem_map.mpr ⟨o', List.mem_filter.mpr ⟨ha'.1, ?_⟩, hh'⟩
    simp only [decide_eq_true_eq]
    refine ⟨⟨?_, fun _ => ?_⟩, fun p hp => ?_⟩
    · exact hkept.clear (by rw [hsh.1]; rfl)
    · have : o'.shown.opFlag = o.shown.opFlag := congrArg (·.opFlag) hv
      rw [show o'.opFlag = o.opFlag from this]
      exact hsh.2 rfl
    · obtain ⟨n, rest, hr⟩ := hw p hp
      refine ⟨n, rest, ?_⟩
      rw [← shown_getAttributeValue e.key o', hv, shown_getAttributeValue]
      exact hr

/-! ## Concrete cases -/

namespace Demo

/-- A DH public key for the token. -/
def dhPubTmpl : List Entry :=
  [.of .cls (ulong CKO_PUBLIC_KEY), .of .keyType (ulong CKK_DH), .of .token [1], .of .prime [23], .of .base [5], .of .value [8],
   .of .derive [1]]

/-- Reading the key and its prime. -/
def readDh (h : Nat) : Call := readCall h tok1 [.of .value [0, 0], .of .prime [0, 0]]

/-- What is read. -/
def shownDh (l : Lib) (h : Nat) : RV × Option (List (Nat × Option Bytes)) :=
  ((answer env l (readDh h)).rv, (answer env l (readDh h)).tmpl.map fun t => t.map fun en => (en.len, en.mem))

/-- A second session is opened; the user logs out; a wrong PIN is tried; the user logs in, changes
the PIN, closes both sessions, which logs out; somebody opens a read-only session. -/
def manyHands : List Call :=
  [openCall true, .sess 65538 .logout, loginCall 65537 .user newPin 0, loginCall 65537 .user userPin 0,
   .sess 65537 (.setPin (some userPin) (some newPin)), .sess 65538 .close, .sess 65537 .close, openCall false]

set_option maxRecDepth 100000 in
/-- The hypotheses of `c120_partial` are met: somebody who is not logged in reads the key. -/
example :
    let cs := setup ++ [createCall 65538 dhPubTmpl]
    BoolToken (cs ++ manyHands) ∧
    answer env (run env fresh setup) (createCall 65538 dhPubTmpl) = { rv := .ok, handle := some tok1 } ∧
    handleOnToken tok1 = true ∧
    (∃ o, Addressed (run env fresh cs) 65538 tok1 o ∧ o.IsPublicKey ∧ Shown .pub o) ∧
    Passed env tok1 (run env fresh cs) manyHands ∧ IsOpen env (run env fresh (cs ++ manyHands)) 65538 ∧
    rvs env fresh (cs ++ manyHands) = List.replicate 10 .ok ++ .pinIncorrect :: List.replicate 5 .ok ∧
    stateOf env (run env fresh (cs ++ manyHands)) 65538 = some .roPublic ∧
    shownDh (run env fresh (cs ++ manyHands)) 65538 = (.ok, some [(1, some [8, 0]), (1, some [23, 0])]) := by
  refine ⟨by unfold BoolToken; decide +kernel, by decide +kernel, by decide, ?_, ?_, by unfold IsOpen; decide +kernel,
    by decide +kernel, by decide +kernel, by decide +kernel⟩
  · refine ⟨_, ⟨List.mem_append_right _ (List.mem_cons_self (l := [])), by decide⟩, ⟨⟨by decide, ?_⟩, by decide, by decide⟩, by decide, fun _ => by decide⟩
    exact .inr (.inr (.inl ⟨by decide, .inr (by decide), { p := 23, g := 5, key := [8] }, by decide, by decide, by decide, by decide, by decide⟩))
  · refine ⟨trivial, trivial, trivial, trivial, trivial, trivial, trivial, trivial, trivial⟩

set_option maxRecDepth 100000 in
/-- C120 is violated over a restart: the library is ended and started again, and a session without
a login finds the key, but its value reads as empty; the user's login brings it back. -/
theorem c120_violated :
    let cs := setup ++ [createCall 65538 dhPubTmpl] ++ [.cFinal, .cInit, openCall true]
    rvs env fresh cs = List.replicate 11 .ok ∧
    answer env (run env fresh (cs ++ [.sess 65538 (.findInit (some [.of .cls (ulong CKO_PUBLIC_KEY)]))])) (.sess 65538 (.findNext true 5)) =
      { rv := .ok, found := [tok1] } ∧
    shownDh (run env fresh cs) 65538 = (.ok, some [(0, some [0, 0]), (1, some [23, 0])]) ∧
    shownDh (run env fresh (cs ++ [loginCall 65538 .user userPin 0])) 65538 = (.ok, some [(1, some [8, 0]), (1, some [23, 0])]) := by
  exact ⟨by decide +kernel, by decide +kernel, by decide +kernel, by decide +kernel⟩

set_option maxRecDepth 100000 in
/-- Changes of a public key are not kept either: somebody sets the value in a session without a
login, and the user's next login takes the change back. -/
theorem c120_violated_set :
    let cs := setup ++ [createCall 65538 dhPubTmpl, .sess 65538 .logout,
      .sess 65538 (.setAttr tok1 (some [.of .prime [23], .of .base [5], .of .value [9]]))]
    rvs env fresh cs = List.replicate 10 .ok ∧
    shownDh (run env fresh cs) 65538 = (.ok, some [(1, some [9, 0]), (1, some [23, 0])]) ∧
    shownDh (run env fresh (cs ++ [loginCall 65538 .user userPin 0])) 65538 = (.ok, some [(1, some [8, 0]), (1, some [23, 0])]) := by
  exact ⟨by decide +kernel, by decide +kernel, by decide +kernel⟩

end Demo

end Verif
