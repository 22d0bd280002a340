import Verif.Proofs.Orderly
import Verif.Props.KeyKept
import Verif.Props.Counters
import Verif.Props.Safe

/-!
# An application that follows a few rules never loses a key
-/

namespace Verif

variable {e : Env}

theorem Start.inOrder {l : Lib} (h : Start l) (hd : NoToken l) : InOrder e l := by
  refine (InOrder.off (by rw [h.count]; decide)).mpr fun u => .inl ?_
  unfold loadToken
  simp only [hd (.token, 0)]

/-- What is known of every state that is reached. -/
theorem reach_facts (hh : HashLen e) (hr : RandLen e) {l₀ : Lib} (h₀ : Start l₀) (hd : NoToken l₀) (cs : List Call)
    (hb : BoolToken cs) (hn : 2 * cs.length < 2 ^ 28) (hv : ClockWithin (2 ^ 62) (cs.map .call)) :
    CapInv (run e l₀ cs) ∧ KInv e (run e l₀ cs) ∧ (run e l₀ cs).token.toRec.Fits ∧
      (0 < (run e l₀ cs).count → ∀ o ∈ (run e l₀ cs).token.objs, o.handle < 2 ^ 64) := by
  obtain ⟨hi, hc, hx⟩ := reach_inv hh hr h₀ hd cs hb hn
  refine ⟨hc, h₀.kinv.run hh cs, c121_record hh hr h₀ hd cs (by omega) hv, fun hcnt => ?_⟩
  unfold HandleInv at hx
  rw [if_pos hcnt] at hx
  exact hx.handle_lt hn

theorem run_snoc (l₀ : Lib) (pre : List Call) (c : Call) : run e l₀ (pre ++ [c]) = (step e (run e l₀ pre) c).1 := by
  rw [run_append]; rfl

/-- One call that obeys the rules. -/
theorem InOrder.step_from (hx : StoreLaws e.store) (hl : SealLen e) (hh : HashLen e) (hr : RandLen e) {l₀ : Lib} (h₀ : Start l₀)
    (hd : NoToken l₀) {pre : List Call} {c : Call} (hb : BoolToken pre) (hn : 2 * pre.length < 2 ^ 28)
    (hv : ClockWithin (2 ^ 62) (pre.map .call)) (hgood : (run e l₀ (pre ++ [c])).bad = false)
    (h : InOrder e (run e l₀ pre)) (ho : Orderly e (run e l₀ pre) c) : InOrder e (run e l₀ (pre ++ [c])) := by
  obtain ⟨_, hK, hrec, hhd⟩ := reach_facts hh hr h₀ hd pre hb hn hv
  rw [run_snoc] at hgood ⊢
  rw [(step_good hgood).2.2]
  exact h.callBody hx hl hr hK ho hrec hhd

/-- The rules make the call one that does not give up the key. -/
theorem Orderly.minds {l : Lib} {c : Call} {ov : Obj} (ho : Orderly e l c) (h : InOrder e l) (hnl : NotLost e ov l)
    (hk : handleOnToken ov.handle = true) (hs : ∀ j, c ≠ .sess j (.destroy ov.handle)) (hc : 0 < l.count)
    (hrec : l.token.toRec.Fits) (hhd : ∀ o ∈ l.token.objs, o.handle < 2 ^ 64) : Minds e ov.handle l c := by
  have hne : tokenObjs l ≠ [] := by
    intro hnil
    have hnil : l.token.objs = [] := hnil
    by_cases hu : l.token.login = .user
    · obtain ⟨o, ho, _⟩ := (NotLost.user hc hu).mp hnl
      rw [hnil] at ho; cases ho
    · obtain ⟨_, _, _, o, ho, _⟩ := (NotLost.away hc hu).mp hnl
      rw [hnil] at ho; cases ho
  cases c with
  | cInit => trivial
  | cFinal => exact fun h1 => h.writable hc (ho h1) hrec hhd
  | slot id c =>
    cases c with
    | initToken p lb => exact absurd ho hne
    | _ => trivial
  | sess j c =>
    cases c <;> first | trivial | skip
    case setAttr i t =>
      intro hik
      have ho : handleOnToken i = false := ho
      rw [hik, hk] at ho; cases ho
    case destroy i =>
      intro hik
      exact hs j (by rw [hik])
    case initPin p => exact fun hx => hne (ho hx)
    case setPin o n => exact fun hx => hne (ho hx)
    case logout => exact fun hu => h.encodable hc hu
    case close => exact fun hu => h.encodable hc hu

/-- Calls that obey the rules, from the state after `pre` on. -/
theorem InOrder.run_from (hx : StoreLaws e.store) (hl : SealLen e) (hh : HashLen e) (hr : RandLen e) {l₀ : Lib} (h₀ : Start l₀)
    (hd : NoToken l₀) (ds : List Call) : ∀ pre : List Call, BoolToken (pre ++ ds) → 2 * (pre ++ ds).length < 2 ^ 28 →
    ClockWithin (2 ^ 62) ((pre ++ ds).map .call) → (run e l₀ (pre ++ ds)).bad = false →
    InOrder e (run e l₀ pre) → Ordered e (run e l₀ pre) ds →
    InOrder e (run e l₀ (pre ++ ds)) ∧
    ∀ ov : Obj, ov.cls ≠ CKO_CERTIFICATE → handleOnToken ov.handle = true → NotDestroyed ov.handle ds →
      NotLost e ov (run e l₀ pre) → NotLost e ov (run e l₀ (pre ++ ds)) := by
  induction ds with
  | nil => intro pre _ _ _ _ h _; rw [List.append_nil]; exact ⟨h, fun _ _ _ _ h => h⟩
  | cons c ds ih =>
    intro pre hb hn hv hgood h ho
    have e1 : pre ++ c :: ds = (pre ++ [c]) ++ ds := by simp
    have hb' : BoolToken pre := fun d hd => hb d (List.mem_append_left _ hd)
    have hn' : 2 * pre.length < 2 ^ 28 := by rw [List.length_append] at hn; omega
    have hv' : ClockWithin (2 ^ 62) (pre.map .call) := fun a b p n hm => hv a b p n (by
      rw [List.map_append]; exact List.mem_append_left _ hm)
    have hg1 : (run e l₀ (pre ++ [c])).bad = false := by
      rw [e1, run_append] at hgood
      cases hx : (run e l₀ (pre ++ [c])).bad with
      | false => rfl
      | true => rw [run_bad hx] at hgood; rw [hx] at hgood; cases hgood
    have h1 := h.step_from hx hl hh hr h₀ hd hb' hn' hv' hg1 ho.1
    have h2 := ih (pre ++ [c]) (by rwa [← e1]) (by rwa [← e1]) (by rwa [← e1]) (by rwa [← e1]) h1
      (by rw [run_snoc]; exact ho.2)
    rw [e1]
    refine ⟨h2.1, fun ov hcert hk hs hnl => h2.2 ov hcert hk (fun j hj => hs j (List.mem_cons_of_mem _ hj)) ?_⟩
    obtain ⟨hcap, hK, hrec, hhd⟩ := reach_facts hh hr h₀ hd pre hb' hn' hv'
    rw [run_snoc] at hg1 ⊢
    rw [(step_good hg1).2.2]
    exact hnl.callBody hx hcert hcap hK fun hc =>
      ho.1.minds h hnl hk (fun j hj => hs j (by rw [hj]; exact List.mem_cons_self)) hc hrec (hhd hc)

theorem ordered_append (a b : List Call) : ∀ l : Lib, Ordered e l (a ++ b) ↔ Ordered e l a ∧ Ordered e (run e l a) b := by
  induction a with
  | nil => intro l; exact ⟨fun h => ⟨trivial, h⟩, fun h => h.2⟩
  | cons c a ih =>
    intro l
    have := ih (step e l c).1
    exact ⟨fun ⟨h1, h2⟩ => ⟨⟨h1, (this.mp h2).1⟩, (this.mp h2).2⟩, fun ⟨⟨h1, h2⟩, h3⟩ => ⟨h1, this.mpr ⟨h2, h3⟩⟩⟩

/-- **C125**: an application that, from the first call on, obeys the rules of `Orderly` never loses
a key of the token.  The user is logged in after some history, and the handle `k` names an object
of the token.  Then any number of further calls is made, none of which destroys it: logouts and
logins, changed PINs, wrong PINs, closed sessions, ends and starts of the library, other objects
made and destroyed.  Whenever the user is logged in again, the handle names the same object
with the same key, and every attribute reads as before.  All hypotheses are about the calls and
the login state when they are made; nothing is assumed about what is in memory or on disk. -/
theorem c125_kept (hx : StoreLaws e.store) (hl : SealLen e) (hh : HashLen e) (hr : RandLen e) {l₀ : Lib} (h₀ : Start l₀)
    (hd : NoToken l₀) (cs cs' : List Call) (h h' k : Nat) (o : Obj)
    (hb : BoolToken (cs ++ cs')) (hn : 2 * (cs ++ cs').length < 2 ^ 28)
    (hv : ClockWithin (2 ^ 62) ((cs ++ cs').map .call)) (ho : Ordered e l₀ (cs ++ cs'))
    (hu : UserIn e (run e l₀ cs) h) (ha : Addressed (run e l₀ cs) h k o) (hk : handleOnToken k = true)
    (hs : NotDestroyed k cs') (hgood : (run e l₀ (cs ++ cs')).bad = false) (hu' : UserIn e (run e l₀ (cs ++ cs')) h') :
    (∃ o', Addressed (run e l₀ (cs ++ cs')) h' k o' ∧ o'.shown = o.shown) ∧
    (∀ o', Addressed (run e l₀ (cs ++ cs')) h' k o' → o'.data = o.data) ∧
    ∀ t, answer e (run e l₀ (cs ++ cs')) (readCall h' k t) = answer e (run e l₀ cs) (readCall h k t) := by
  have hb1 : BoolToken cs := fun d hd => hb d (List.mem_append_left _ hd)
  have hn1 : 2 * cs.length < 2 ^ 28 := by rw [List.length_append] at hn; omega
  have hv1 : ClockWithin (2 ^ 62) (cs.map .call) := fun a b p n hm => hv a b p n (by
    rw [List.map_append]; exact List.mem_append_left _ hm)
  have hg1 : (run e l₀ cs).bad = false := by
    rw [run_append] at hgood
    cases hx : (run e l₀ cs).bad with
    | false => rfl
    | true => rw [run_bad hx] at hgood; rw [hx] at hgood; cases hgood
  obtain ⟨o1, o2⟩ := (ordered_append cs cs' l₀).mp ho
  have hin := ((h₀.inOrder hd).run_from hx hl hh hr h₀ hd cs [] hb1 hn1 hv1 hg1 o1).1
  rw [List.nil_append] at hin
  obtain ⟨hi, hc, hx1⟩ := reach_inv hh hr h₀ hd cs hb1 hn1
  obtain ⟨hi', _, hx2⟩ := reach_inv hh hr h₀ hd (cs ++ cs') hb hn
  obtain ⟨s, hses, hbad, hcnt, hlog⟩ := user_of_state hi hu
  obtain ⟨s', hses', hbad', hcnt', hlog'⟩ := user_of_state hi' hu'
  unfold HandleInv at hx1 hx2
  rw [if_pos hcnt] at hx1
  rw [if_pos hcnt'] at hx2
  have hfind := addressed_find hx1 hn1 hses ha
  obtain ⟨p1, p2, _⟩ := findObj_parts hfind
  have hcert : o.cls ≠ CKO_CERTIFICATE := (hin.neat hcnt o (p2 hk)).cert
  have hend := (hin.run_from hx hl hh hr h₀ hd cs' cs hb hn hv hgood o2).2 o.shown (show o.shown.cls ≠ _ from hcert)
    (by rw [show o.shown.handle = o.handle from rfl, p1]; exact hk)
    (by rw [show o.shown.handle = o.handle from rfl, p1]; exact hs)
    ((NotLost.user hcnt hlog).mpr ⟨o, p2 hk, rfl⟩)
  obtain ⟨o', ho', hsh⟩ := (NotLost.user hcnt' hlog').mp hend
  have hh' : o'.handle = k := by
    have : o'.shown.handle = o.shown.handle := congrArg (·.handle) hsh
    exact this.trans p1
  have ha' : Addressed (run e l₀ (cs ++ cs')) h' k o' := ⟨List.mem_append_right _ ho', hh'⟩
  have hfind' := addressed_find hx2 hn hses' ha'
  refine ⟨⟨o', ha', hsh⟩, fun q hq => ?_, fun t => ?_⟩
  · rw [addressed_unique hx2 hn hses' hq ha']
    have : o'.shown.data = o.shown.data := congrArg (fun o : Obj => o.data) hsh
    exact this
  · unfold readCall answer
    rw [step_resp hbad, step_resp hbad']
    simp only [callBody, hses, hses', if_neg (show ¬ (run e l₀ cs).count ≤ 0 by omega),
      if_neg (show ¬ (run e l₀ (cs ++ cs')).count ≤ 0 by omega), sessCall, cGetAttr, hfind, hfind']
    rw [← shown_getAttributeValue e.key o', hsh, shown_getAttributeValue]

/-- C125 with callers that also keep to `Safe`: that no call runs into undefined behaviour need
not be assumed. -/
theorem c125_kept_safe (hx : StoreLaws e.store) (hl : SafeLaws e) {l₀ : Lib} (h₀ : Start l₀)
    (hd : NoToken l₀) (cs cs' : List Call) (h h' k : Nat) (o : Obj)
    (hb : BoolToken (cs ++ cs')) (hn : 2 * (cs ++ cs').length < 2 ^ 28)
    (hv : ClockWithin (2 ^ 62) ((cs ++ cs').map .call)) (ho : Ordered e l₀ (cs ++ cs')) (hsafe : Safe e l₀ (cs ++ cs'))
    (hu : UserIn e (run e l₀ cs) h) (ha : Addressed (run e l₀ cs) h k o) (hk : handleOnToken k = true)
    (hs : NotDestroyed k cs') (hu' : UserIn e (run e l₀ (cs ++ cs')) h') :
    (∃ o', Addressed (run e l₀ (cs ++ cs')) h' k o' ∧ o'.shown = o.shown) ∧
    (∀ o', Addressed (run e l₀ (cs ++ cs')) h' k o' → o'.data = o.data) ∧
    ∀ t, answer e (run e l₀ (cs ++ cs')) (readCall h' k t) = answer e (run e l₀ cs) (readCall h k t) :=
  c125_kept hx hl.sealed hl.hash hl.rand h₀ hd cs cs' h h' k o hb hn hv ho hu ha hk hs
    (c103_partial hl h₀ hd (cs ++ cs') hb hn hsafe).2 hu'

/-! ## A case -/

namespace Demo

theorem sealLen : SealLen env := 
  ⟨safe_laws.sealed.1, safe_laws.sealed.2, nofun, nofun, nofun, nofun⟩

def secret? (t : List Entry) : Bool :=
  t.all fun en => (en.typ != .cls || leNat en.val != CKO_CERTIFICATE) && (en.typ != .valueLen || decide (leNat en.val ≤ 512)) &&
    (!(en.typ == .id || en.typ == .label) || decide (en.val.length < 2 ^ 31)) &&
    (!(en.typ == .startDate || en.typ == .endDate) || en.val.length == 8)

theorem secret_of {t : List Entry} (h : secret? t = true) : SecretTmpl t := by
  unfold secret? at h
  rw [List.all_eq_true] at h
  simp only [Bool.and_eq_true, Bool.or_eq_true, Bool.not_eq_true', Bool.or_eq_false_iff, beq_eq_false_iff_ne, bne_iff_ne, beq_iff_eq,
    decide_eq_true_eq] at h
  refine ⟨?_, fun en hm ht => ((h en hm).1.1.2).resolve_left fun hx => hx ht, fun en hm ht => ?_, fun en hm ht => ?_⟩
  · rintro ⟨en, hm, ht, hv⟩
    exact ((h en hm).1.1.1).elim (fun hx => hx ht) fun hx => hx hv
  · exact ((h en hm).1.2).resolve_left fun hx => ht.elim hx.1 hx.2
  · exact ((h en hm).2).resolve_left fun hx => ht.elim hx.1 hx.2

/-- Nothing that would make it another key. -/
def plain? (t : List Entry) : Bool :=
  secret? t && t.all fun en => !([CKA.cls, .privateExponent, .prime1, .prime2, .exponent1, .exponent2, .coefficient, .value, .ecPoint].contains en.typ)

theorem plain_of {t : List Entry} (h : plain? t = true) : PublicTmpl t ∧ PrivateTmpl t := by
  simp only [plain?, Bool.and_eq_true, List.all_eq_true, Bool.not_eq_true', List.contains_eq_mem, decide_eq_false_iff_not, List.mem_cons,
    List.not_mem_nil, or_false, not_or] at h
  have hc : ∀ en ∈ t, en.typ ≠ .cls := fun en hm => (h.2 en hm).1
  exact ⟨⟨secret_of h.1, fun en hm hx => absurd hx (hc en hm), fun en hm => (h.2 en hm).2⟩, secret_of h.1, fun en hm hx => absurd hx (hc en hm)⟩

/-- An RSA or EC private key. -/
def private? (t : List Entry) : Bool :=
  secret? t && t.all (fun en => en.typ != .cls || leNat en.val == CKO_PRIVATE_KEY) &&
    (findAttr t .cls).any (fun en => leNat en.val == CKO_PRIVATE_KEY) &&
    (findAttr t .keyType).any (fun en => leNat en.val == CKK_RSA || leNat en.val == CKK_EC)

theorem private_of {t : List Entry} (h : private? t = true) : KeepTmpl t := by
  simp only [private?, Bool.and_eq_true, List.all_eq_true, Bool.or_eq_true, bne_iff_ne, beq_iff_eq, Option.any_eq_true] at h
  obtain ⟨⟨⟨h1, h2⟩, en, h3, h4⟩, en', h5, h6⟩ := h
  refine .inr (.inl ⟨⟨secret_of h1, fun en hm hx => (h2 en hm).resolve_left fun hn => hn hx⟩, ⟨en, h3, h4⟩, ?_⟩)
  exact h6.imp (fun h => ⟨en', h5, h⟩) (fun h => ⟨en', h5, h⟩)

/-- A test for calls that obey the rules; it turns down some that do. -/
def orderly? (l : Lib) : Call → Bool
  | .cInit => true
  | .cFinal => l.token.login != .user
  | .slot _ (.initToken ..) => (tokenObjs l).isEmpty
  | .slot _ (.openSession ..) => true
  | .sess _ (.create (some t) _) => !decide (ForToken t) || (l.token.login == .user && ((secret? t && (findAttr t .keyType).any fun en =>
      leNat en.val == CKK_AES || leNat en.val == CKK_GENERIC_SECRET) || private? t))
  | .sess _ (.genKey _ (some t) _) => l.token.login == .user && secret? t
  | .sess _ (.genPair (some m) (some t) (some t') _) => l.token.login == .user && (m.1 == .rsaKeyPairGen || m.1 == .ecKeyPairGen) &&
      plain? t && plain? t'
  | .sess _ (.initPin _) => (tokenObjs l).isEmpty
  | .sess _ (.setPin ..) => l.token.login != .pub
  | .sess _ (.login u _ _) => u == .so || l.token.user.pin == env.store.hash userPin l.token.user.seed ||
      l.token.user.pin == env.store.hash newPin l.token.user.seed
  | .sess _ .logout | .sess _ .close | .sess _ (.destroy _) | .sess _ (.cryptInit ..) | .sess _ (.crypt _) | .sess _ (.wrap ..) => true
  | _ => false

theorem orderly_of {l : Lib} {c : Call} (h : orderly? l c = true) : Orderly env l c := by
  unfold orderly? at h
  split at h
  · trivial
  · exact fun _ => by simpa using h
  · exact List.isEmpty_iff.mp h
  · trivial
  · simp only [Bool.or_eq_true, Bool.and_eq_true, beq_iff_eq, Option.any_eq_true, Bool.not_eq_true', decide_eq_false_iff_not] at h
    intro ht
    obtain ⟨h1, ⟨h2, en, h3, h4⟩ | h2⟩ := h.resolve_left fun hx => hx ht
    · exact ⟨h1, .inl ⟨secret_of h2, en, h3, h4⟩⟩
    · exact ⟨h1, private_of h2⟩
  · simp only [Bool.and_eq_true, beq_iff_eq] at h
    exact fun _ => ⟨h.1, secret_of h.2⟩
  · simp only [Bool.and_eq_true, Bool.or_eq_true, beq_iff_eq] at h
    exact ⟨fun _ => h.1.1, fun _ => (plain_of h.1.2).1, fun _ => (plain_of h.2).2⟩
  · exact fun _ => List.isEmpty_iff.mp h
  · exact fun hx => absurd hx (by simpa using h)
  · simp only [Bool.or_eq_true, beq_iff_eq] at h
    intro hu
    rcases h with (h | h) | h
    · rw [hu] at h; cases h
    · exact onePin_of h (by decide)
    · exact onePin_of h (by decide)
  · trivial
  · trivial
  · trivial
  · trivial
  · trivial
  · trivial
  · cases h

def ordered? (l : Lib) : List Call → Bool
  | [] => true
  | c :: cs => orderly? l c && ordered? (Verif.step env l c).1 cs

theorem ordered_of {l : Lib} {cs : List Call} (h : ordered? l cs = true) : Ordered env l cs := by
  induction cs generalizing l with
  | nil => trivial
  | cons c cs ih =>
    rw [ordered?, Bool.and_eq_true] at h
    exact ⟨orderly_of h.1, ih h.2⟩

/-- The way of `longWay`; then another key is made and destroyed, and the library ended, started
and logged in to again. -/
def longerWay : List Call :=
  longWay ++ [createCall 65538 (openTmpl true 9), .sess 65538 (.destroy (tok1 + 1)), .sess 65538 .logout, .cFinal, .cInit, openCall true,
    loginCall 65538 .user newPin 0]

set_option maxRecDepth 100000 in
/-- The hypotheses of `c125_kept` are met through logouts, a PIN change, a second key and two
restarts. -/
example : StoreLaws env.store ∧ SealLen env ∧ HashLen env ∧ RandLen env ∧ BoolToken (withKey ++ longerWay) ∧
    2 * (withKey ++ longerWay).length < 2 ^ 28 ∧ ClockWithin (2 ^ 62) ((withKey ++ longerWay).map .call) ∧
    Ordered env fresh (withKey ++ longerWay) ∧ stateOf env (run env fresh withKey) 65538 = some .rwUser ∧
    (∃ o, Addressed (run env fresh withKey) 65538 tok1 o) ∧ handleOnToken tok1 = true ∧ NotDestroyed tok1 longerWay ∧
    (run env fresh (withKey ++ longerWay)).bad = false ∧
    stateOf env (run env fresh (withKey ++ longerWay)) 65538 = some .rwUser ∧
    rvs env (run env fresh withKey) longerWay =
      [.ok, .ok, .pinIncorrect, .ok, .ok, .ok, .ok, .ok, .ok, .ok, .ok, .ok, .ok, .ok, .ok, .ok] ∧
    shownValue env (run env fresh (withKey ++ longerWay)) tok1 = some [(16, some (List.replicate 16 7))] := by
  refine ⟨store_laws, sealLen, hashLen, randLen, by unfold BoolToken; decide, by decide, clockWithin_of (by decide),
    ordered_of (by decide +kernel), by decide +kernel, ?_, by decide, ?_, by decide +kernel, by decide +kernel, by decide +kernel,
    by decide +kernel⟩
  · exact ⟨_, List.mem_append_right _ (List.mem_cons_self (l := [])), by decide⟩
  · intro h hm
    simp [longerWay, longWay, openCall, createCall, loginCall, tok1] at hm

end Demo

end Verif
