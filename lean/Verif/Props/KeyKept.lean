import Verif.Proofs.KeyKept
import Verif.Props.History

/-!
# A key of the token over logouts, logins, PIN changes and restarts (C107)
-/

namespace Verif

variable {e : Env}

theorem NotLost.run (hx : StoreLaws e.store) (hh : HashLen e) (hr : RandLen e) {ov : Obj} (hcert : ov.cls ≠ CKO_CERTIFICATE)
    (cs : List Call) : ∀ {l : Lib}, NotLost e ov l → CapInv l → SInv l → KInv e l → (run e l cs).bad = false →
      Minded e ov.handle l cs → NotLost e ov (run e l cs) := by
  induction cs with
  | nil => intro l h _ _ _ _ _; exact h
  | cons c cs ih =>
    intro l h hcap hi hK hgood hm
    have hg1 : (step e l c).1.bad = false := run_good hgood
    refine ih ?_ (hcap.step hh hr hi c) (hi.step e c) (hK.step hh c) hgood hm.2
    rw [(step_good hg1).2.2]
    exact h.callBody hx hcert hcap hK fun _ => hm.1

/-- **C107**, except for what `Minds` rules out: a key of the token is neither lost nor
changed by logging out and in, by changing the PIN, or by ending and restarting the library.
The user is logged in after some history, and the handle `k` names a key of the token.  Then
any number of further calls is made, of which none changes or destroys the object or
initialises the token, and at the end the user is logged in.  In each of the user's sessions
the handle names an object with the same key, and every attribute reads as before.
Missing: a PIN that the security officer sets or that is changed in a public session
(`c39_violated_so`, `c39_violated_public`), a process that ends before the changed PIN's keys
are written (`c39_violated_finalize`), keys that cannot be encoded, certificates over a
restart. -/
theorem c107_partial (hx : StoreLaws e.store) (hh : HashLen e) (hr : RandLen e) {l₀ : Lib} (h₀ : Start l₀)
    (hd : NoToken l₀) (cs cs' : List Call) (h h' k : Nat) (o : Obj)
    (hb : BoolToken (cs ++ cs')) (hn : 2 * (cs ++ cs').length < 2 ^ 28)
    (hu : UserIn e (run e l₀ cs) h)
    (ha : Addressed (run e l₀ cs) h k o) (hk : handleOnToken k = true) (hcert : o.cls ≠ CKO_CERTIFICATE)
    (hcs : Minded e k (run e l₀ cs) cs') (hgood : (run e l₀ (cs ++ cs')).bad = false)
    (hu' : UserIn e (run e l₀ (cs ++ cs')) h') :
    (∃ o', Addressed (run e l₀ (cs ++ cs')) h' k o' ∧ o'.shown = o.shown) ∧
    (∀ o', Addressed (run e l₀ (cs ++ cs')) h' k o' → o'.data = o.data) ∧
    ∀ t, answer e (run e l₀ (cs ++ cs')) (readCall h' k t) = answer e (run e l₀ cs) (readCall h k t) := by
  have hb1 : BoolToken cs := fun d hd => hb d (List.mem_append_left _ hd)
  rw [List.length_append] at hn
  obtain ⟨hi, hc, hx1⟩ := reach_inv hh hr h₀ hd cs hb1 (by omega)
  obtain ⟨hi', _, hx2⟩ := reach_inv hh hr h₀ hd (cs ++ cs') hb (by rw [List.length_append]; omega)
  have hK := h₀.kinv.run hh cs (e := e)
  rw [List.length_append] at hx2
  rw [run_append] at *
  generalize run e l₀ cs = l at *
  obtain ⟨s, hs, hbad, hcnt, hlog⟩ := user_of_state hi hu
  obtain ⟨s', hs', hbad', hcnt', hlog'⟩ := user_of_state hi' hu'
  unfold HandleInv at hx1 hx2
  rw [if_pos hcnt] at hx1
  rw [if_pos hcnt'] at hx2
  have hfind := addressed_find hx1 (by omega) hs ha
  obtain ⟨p1, p2, _⟩ := findObj_parts hfind
  have hstart : NotLost e o.shown l := (NotLost.user hcnt hlog).mpr ⟨o, p2 hk, rfl⟩
  have hcs' : Minded e o.shown.handle l cs' := by
    rw [show o.shown.handle = o.handle from rfl, p1]; exact hcs
  have hend := hstart.run hx hh hr (show o.shown.cls ≠ _ from hcert) cs' hc hi hK hgood hcs'
  obtain ⟨o', ho', hv⟩ := (NotLost.user hcnt' hlog').mp hend
  have hh' : o'.handle = k := by
    have : o'.shown.handle = o.shown.handle := congrArg (·.handle) hv
    exact this.trans p1
  have ha' : Addressed (run e l cs') h' k o' := ⟨List.mem_append_right _ ho', hh'⟩
  have hfind' := addressed_find hx2 (by omega) hs' ha'
  refine ⟨⟨o', ha', hv⟩, fun q hq => ?_, fun t => ?_⟩
  · rw [addressed_unique hx2 (by omega) hs' hq ha']
    have : o'.shown.data = o.shown.data := congrArg (fun o : Obj => o.data) hv
    exact this
  · unfold readCall answer
    rw [step_resp hbad, step_resp hbad']
    simp only [callBody, hs, hs', if_neg (show ¬ l.count ≤ 0 by omega), if_neg (show ¬ (run e l cs').count ≤ 0 by omega),
      sessCall, cGetAttr, hfind, hfind']
    rw [← shown_getAttributeValue e.key o', hv, shown_getAttributeValue]

theorem minded_append {k : Nat} (a b : List Call) : ∀ l : Lib, Minded e k l (a ++ b) ↔ Minded e k l a ∧ Minded e k (run e l a) b := by
  induction a with
  | nil => intro l; exact ⟨fun h => ⟨trivial, h⟩, fun h => h.2⟩
  | cons c a ih =>
    intro l
    have := ih (step e l c).1
    exact ⟨fun ⟨h1, h2⟩ => ⟨⟨h1, (this.mp h2).1⟩, (this.mp h2).2⟩, fun ⟨⟨h1, h2⟩, h3⟩ => ⟨h1, this.mpr ⟨h2, h3⟩⟩⟩

theorem minded_run {k : Nat} {l₀ : Lib} {cs ds : List Call} {c : Call} (h1 : Minds e k (run e l₀ cs) c)
    (h2 : Minded e k (run e l₀ (cs ++ [c])) ds) : Minded e k (run e l₀ cs) (c :: ds) := by
  rw [run_append] at h2
  exact ⟨h1, h2⟩

/-- A key that the calls leave alone is the same afterwards. -/
theorem untouched_data (hx : StoreLaws e.store) (hh : HashLen e) (hr : RandLen e) {l₀ : Lib} (h₀ : Start l₀)
    (hd : NoToken l₀) (cs cs' : List Call) {h h' k : Nat} {o : Obj} {s : Session}
    (hb : BoolToken (cs ++ cs')) (hn : 2 * (cs ++ cs').length < 2 ^ 28) (hcnt : 0 < (run e l₀ cs).count)
    (hs : getSession (run e l₀ cs) h = some s) (ha : Addressed (run e l₀ cs) h k o) (hcert : o.cls ≠ CKO_CERTIFICATE)
    (hcs : Untouched e (run e l₀ cs) cs' h h' k) (hgood : (run e l₀ (cs ++ cs')).bad = false) {o' : Obj}
    (ho' : Addressed (run e l₀ (cs ++ cs')) h' k o') : o'.data = o.data := by
  rcases hcs with ⟨rfl, hcs⟩ | ⟨hk, hu, hu', hm⟩
  · exact addressed_later hh hr h₀ hd cs cs' h' k hb hn hcnt hs ha hcs hgood ho'
  · rw [← run_append] at hu'
    exact (c107_partial hx hh hr h₀ hd cs cs' h h' k o hb hn hu ha hk hcert hm hgood hu').2.1 o' ho'

/-! ## Concrete cases -/

namespace Demo

theorem onePin_of {l : Lib} {p : Bytes} (h : l.token.user.pin = env.store.hash p l.token.user.seed) (hp : p.length ≤ 30) :
    OnePin env l := by
  have one : ∀ q : Bytes, q.length ≤ 32 → Matches env l.token.user q → q = p := by
    intro q hq hm
    obtain ⟨_, hm⟩ := hm
    rw [h, hashLen, List.take_of_length_le (by rw [hashLen]; decide)] at hm
    exact hash_inj hp hq hm
  intro p' q' _ h2 _ h4 h5 h6
  rw [one p' h2 h5, one q' h4 h6]

/-- The objects are AES keys. -/
def aesOnly (l : Lib) : Bool := (tokenObjs l).all fun o => o.typ == CKK_AES && o.cls == CKO_SECRET_KEY && o.symm.length == 16 &&
  decide (o.data = .symm o.symm) && o.iv.length == 12 && o.handle == tok1 && decide (o.keyGenMech < 2 ^ 64) &&
  o.startDate.length == 8 && o.endDate.length == 8 && o.keyId.length == 0 && o.label.length == 0

theorem aesOnly_isKey {o : Obj} (h1 : o.typ = CKK_AES) (h2 : o.cls = CKO_SECRET_KEY) (h3 : o.symm.length = 16)
    (h4 : o.data = .symm o.symm) : o.IsKey :=
  ⟨by rw [h2]; decide, .inr (.inr (.inr ⟨.inl h1, _, h4, by omega⟩))⟩

theorem aesOnly_encodable {l : Lib} (h : aesOnly l = true) : AllEncodable env l := by
  intro o ho
  have := List.all_eq_true.mp h o ho
  simp only [Bool.and_eq_true, beq_iff_eq, decide_eq_true_eq] at this
  refine .inr ⟨aesOnly_isKey (by omega) (by omega) (by omega) (by obtain ⟨⟨⟨⟨⟨⟨⟨⟨_, h⟩, _⟩, _⟩, _⟩, _⟩, _⟩, _⟩, _⟩ := this; exact h), ?_⟩
  obtain ⟨⟨⟨⟨⟨⟨⟨⟨_, h⟩, _⟩, _⟩, _⟩, _⟩, _⟩, _⟩, _⟩ := this
  rw [Obj.keyBytes, h]
  rfl

theorem aesOnly_storable {l : Lib} (h : aesOnly l = true)
    (hk : ∀ o ∈ tokenObjs l, o.keyData.map (·.length) = some 32) : ∀ o ∈ tokenObjs l, o.Storable := by
  intro o ho
  have := List.all_eq_true.mp h o ho
  simp only [Bool.and_eq_true, beq_iff_eq, decide_eq_true_eq] at this
  obtain ⟨⟨⟨⟨⟨⟨⟨⟨⟨⟨a1, a2⟩, a3⟩, a4⟩, a5⟩, a6⟩, a7⟩, a8⟩, a9⟩, a10⟩, a11⟩ := this
  obtain ⟨c, hc, hl⟩ := Option.map_eq_some_iff.mp (hk o ho)
  exact ⟨(aesOnly_isKey a1 a2 a3 a4).form, ⟨a5, by rw [a6]; decide, by rw [a2]; decide, a7, a8, a9, by rw [a10]; decide,
    by rw [a11]; decide⟩, c, hc, by rw [hl]; decide⟩

/-- The user changes the PIN, logs out, is refused with the old PIN and logs in with the new
one; closes the last session; the library is ended and started again; the user logs in. -/
def longWay : List Call :=
  [.sess 65538 (.setPin (some userPin) (some newPin)), .sess 65538 .logout, loginCall 65538 .user userPin 0,
   loginCall 65538 .user newPin 0, .sess 65538 .close, .cFinal, .cInit, openCall true, loginCall 65538 .user newPin 0]

/-- What `longWay` needs, as far as it can be computed. -/
def wayOk (l : Lib) : Bool :=
  let at' (n : Nat) := run env l (longWay.take n)
  decide ((at' 0).token.login ≠ .pub) && aesOnly (at' 1) &&
  decide ((at' 2).token.user.pin = env.store.hash newPin (at' 2).token.user.seed) &&
  decide ((at' 3).token.user.pin = env.store.hash newPin (at' 3).token.user.seed) && aesOnly (at' 4) && aesOnly (at' 5) &&
  (tokenObjs (at' 5)).all (fun o => decide (o.keyData.map (·.length) = some 32)) && decide ((at' 5).token.login ≠ .user) &&
  decide ((at' 8).token.user.pin = env.store.hash newPin (at' 8).token.user.seed)

theorem longWay_minded_of {l : Lib} (h : wayOk l = true) (hfits : (run env l (longWay.take 5)).token.toRec.Fits) :
    Minded env tok1 l longWay := by
  simp only [wayOk, Bool.and_eq_true, decide_eq_true_eq] at h
  obtain ⟨⟨⟨⟨⟨⟨⟨⟨h0, h1⟩, h2⟩, h3⟩, h4⟩, h5⟩, h6⟩, h7⟩, h8⟩ := h
  refine ⟨h0, fun _ => aesOnly_encodable h1, fun _ => onePin_of h2 (by decide), fun _ => onePin_of h3 (by decide),
    fun _ => aesOnly_encodable h4, fun _ => ⟨hfits, aesOnly_storable h5 ?_, fun hx => absurd hx h7⟩, trivial, trivial,
    fun _ => onePin_of h8 (by decide), trivial⟩
  intro o ho
  exact of_decide_eq_true (List.all_eq_true.mp h6 o ho)

set_option maxRecDepth 40000 in
theorem longWay_fits : (run env (run env fresh withKey) (longWay.take 5)).token.toRec.Fits := by
  rw [← run_append]
  have h : (run env fresh (withKey ++ longWay.take 5)).token.toRec.types = [CKK_AES] := by decide
  refine ⟨by decide, ⟨by decide, by decide, ?_, ?_, ?_⟩, ⟨by decide, by decide, ?_, ?_, ?_⟩, by decide, ?_, ?_⟩
  · unfold IsInt; decide
  · unfold IsTime; decide
  · unfold IsTime; decide
  · unfold IsInt; decide
  · unfold IsTime; decide
  · unfold IsTime; decide
  · rw [h]; decide
  · rw [h]; decide

set_option maxRecDepth 40000 in
theorem longWay_minded : Minded env tok1 (run env fresh withKey) longWay :=
  longWay_minded_of (by decide) longWay_fits

set_option maxRecDepth 40000 in
/-- The hypotheses of `c107_partial` are met by a long way through logouts, a PIN change and
a restart; the key is named and reads the same at the end. -/
example : BoolToken (withKey ++ longWay) ∧ handleOnToken tok1 = true ∧
    stateOf env (run env fresh withKey) 65538 = some .rwUser ∧
    (∃ o, Addressed (run env fresh withKey) 65538 tok1 o ∧ o.cls ≠ CKO_CERTIFICATE) ∧
    Minded env tok1 (run env fresh withKey) longWay ∧ (run env fresh (withKey ++ longWay)).bad = false ∧
    stateOf env (run env fresh (withKey ++ longWay)) 65538 = some .rwUser ∧
    rvs env (run env fresh withKey) longWay = [.ok, .ok, .pinIncorrect, .ok, .ok, .ok, .ok, .ok, .ok] ∧
    shownValue env (run env fresh (withKey ++ longWay)) tok1 = some [(16, some (List.replicate 16 7))] := by
  refine ⟨by unfold BoolToken; decide, by decide, by decide, ?_, longWay_minded, by decide, by decide, by decide, by decide⟩
  exact ⟨_, ⟨List.mem_append_right _ (List.mem_cons_self (l := [])), by decide⟩, by decide⟩

end Demo

end Verif
