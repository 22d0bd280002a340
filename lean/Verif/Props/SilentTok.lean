import Verif.Proofs.SilentTok
import Verif.Props.Silent
import Verif.Props.Restart

/-!
# A key of the token that is not used does not show (C135)
-/

namespace Verif

variable {e : Env}

theorem DifferOn.ltk {l l' : Lib} (hp : l.PopA) {k : Nat} (d : DifferOn e k l l') : LTk e k l l' := by
  obtain ⟨o, o', dk, ho, hk, hc, hsame, rfl⟩ := d.ex
  refine ⟨rfl, ?_, d.running⟩
  have hnd : (l.token.objs.map (·.uid)).Nodup := by
    have h1 := hp.tokNd
    rw [List.map_map] at h1
    exact h1
  have hob : ∀ os : List Obj, (∀ p ∈ os, p ∈ l.token.objs) → AllPairs (OTk e k l.sessions) os (os.map fun p => if p.uid = o.uid then o' else p) := by
    intro os
    induction os with
    | nil => intro _; exact .nil
    | cons p os ihp =>
      intro hpo
      refine .cons ?_ (ihp fun q hq => hpo q (List.mem_cons_of_mem _ hq))
      dsimp only
      split
      · rename_i hu
        have hpo : p = o := uid_inj hnd (hpo p (List.mem_cons_self ..)) ho hu
        subst hpo
        exact .inr ⟨hk, hc, hsame⟩
      · exact .inl rfl
  exact hob l.token.objs fun _ hp => hp

theorem tk_replies (hh : HashLen e) (hr : RandLen e) (hx : e.key.Lawful) {k : Nat} (ds : List Call) (hd : ∀ c ∈ ds, ¬ EmploysAny k c ∧ ¬ Reopens c) :
    ∀ {l l' : Lib}, SInv l → CapInv l → LTk e k l l' → replies e l' ds = replies e l ds := by
  induction ds with
  | nil => intros; rfl
  | cons c ds ih =>
    intro l l' hi hc t
    have hs := tk_step hx t hc.pop hi c (hd c (List.mem_cons_self ..)).1 (hd c (List.mem_cons_self ..)).2
    unfold replies
    rw [ih (fun d hd' => hd d (List.mem_cons_of_mem _ hd')) (hi.step e c) (hc.step hh hr hi c) hs.1]
    have : answer e l' c = answer e l c := hs.2
    rw [this]

/-- **C135**: what applications are told depends on the secret part of a key of the token only once the key is used. Take any history, and a private or
secret key of the token that is sensitive or not extractable and that no session is using. Whatever the secret part of that key is, and
whatever the store holds, every later call in any session gets the same reply, also after the user has logged out, until a call uses the key or sets
its attributes, the user logs in anew, or the library is shut down. -/
theorem c135_silent (hh : HashLen e) (hr : RandLen e) (hx : e.key.Lawful) {l₀ : Lib} (h₀ : Start l₀) (hd : NoToken l₀) (cs : List Call)
    {l' : Lib} {k : Nat} (hl : DifferOn e k (run e l₀ cs) l') (ds : List Call) (hds : ∀ c ∈ ds, ¬ EmploysAny k c ∧ ¬ Reopens c) :
    replies e l' ds = replies e (run e l₀ cs) ds := by
  have hi := h₀.sinv.run e cs
  have hc := (Start.capInv h₀ hd).run hh hr h₀.sinv cs
  exact tk_replies hh hr hx ds hds hi hc (hl.ltk hc.pop)

/-! ## From the creation of the key on -/

/-- Creating a secret key on the token. -/
theorem create_muteTok {l : Lib} (hb : l.bad = false) (ha : Aged l) {h k : Nat} {typ : Nat} {v v' : Bytes} {rest : List Entry}
    (hr : FreeOfKey rest) (hne : ∀ en ∈ rest, en.typ ≠ .extractable) (hv : v.length = v'.length) (ht : typ = CKK_AES ∨ typ = CKK_GENERIC_SECRET)
    (hok : answer e l (createCall h (secretFor typ v rest)) = { rv := .ok, handle := some k }) :
    answer e l (createCall h (secretFor typ v' rest)) = { rv := .ok, handle := some k } ∧
    LTk e k (step e l (createCall h (secretFor typ v rest))).1 (step e l (createCall h (secretFor typ v' rest))).1 := by
  unfold createCall at *
  unfold answer at *
  rw [step_resp hb] at hok
  simp only [callBody] at hok
  split at hok
  · cases hok
  rename_i hc
  cases hs : getSession l h with
  | none => rw [hs] at hok; cases hok
  | some s =>
    rw [hs] at hok
    simp only [sessCall, cCreate] at hok
    by_cases hu : s.use ≠ .rw
    · rw [if_pos hu] at hok; cases hok
    rw [if_neg hu, createObject_secretFor hr ht] at hok
    cases hn : newObject e s typ CKO_SECRET_KEY (secretFor typ v rest) with
    | mk rv o =>
      rw [hn] at hok
      cases rv <;> first | cases hok | skip
      have hok : (addObject e l s (secretFor typ v rest) o).2 = { rv := .ok, handle := some k } := hok
      have htb : ∀ w, tokenByte (secretFor typ w rest) 0 = .ok 1 := by
        intro w
        unfold tokenByte
        rw [(findAttr_secret (on := 1) (typ := typ) (v := w) hr).2.2]
        rfl
      obtain ⟨n1, n2, b, b', n3, n4, n5, n6⟩ := newSecret hv ht hn
      obtain ⟨z1, z2⟩ := newSecret_shut hr hne ht hn
      have hbody : ∀ w p, newObject e s typ CKO_SECRET_KEY (secretFor typ w rest) = (.ok, p) →
          callBody e l (.sess h (.create (some (secretFor typ w rest)) true)) = addObject e l s (secretFor typ w rest) p := by
        intro w p hp
        simp only [callBody, if_neg hc, hs, sessCall, cCreate, if_neg hu, createObject_secretFor hr ht, hp]
        rfl
      have hlen : ¬ l.token.objs.length ≥ tokenObjMax := by
        intro hlen
        unfold addObject at hok
        rw [htb] at hok
        unfold sessAddObject at hok
        simp only [if_pos hlen] at hok
        cases hok
      have hadd : ∀ w p, p.cls ≠ CKO_CERTIFICATE → p.typ = typ → addObject e l s (secretFor typ w rest) p =
          ((Lib.store e { l with uid := l.uid + 1, token := { l.token with objs :=
            { p with onToken := true, uid := l.uid, handle := nextHandle l.token.objs 1, keyData := some (e.store.aeadEnc l.token.key p.iv p.symm) } :: l.token.objs } }).1,
            { rv := .ok, handle := some (nextHandle l.token.objs 1) }) := by
        intro w p hpc hpt
        have henc : encodeObj e.store l.token.key false { p with onToken := decide (1 % 2 = 1), uid := l.uid } =
            (true, { p with onToken := true, uid := l.uid, keyData := some (e.store.aeadEnc l.token.key p.iv p.symm) }) := by
          unfold encodeObj
          rw [if_neg (show ({ p with onToken := decide (1 % 2 = 1), uid := l.uid } : Obj).cls ≠ CKO_CERTIFICATE from hpc)]
          unfold encodeKey
          dsimp only
          rw [hpt]
          rcases ht with rfl | rfl <;> rfl
        unfold addObject
        rw [htb]
        unfold sessAddObject
        dsimp only
        rw [if_pos (show (1 : Nat) ≠ 0 by decide), if_neg hlen, henc]
        rfl
      have hk : nextHandle l.token.objs 1 = k := by
        rw [hadd v o n2 n1] at hok
        exact Option.some.inj (congrArg Resp.handle hok)
      have a2 := hadd v' (o.wd (.symm b')) n2 n1
      have a1 := hadd v o n2 n1
      have s1 : step e l (.sess h (.create (some (secretFor typ v rest)) true)) = addObject e l s (secretFor typ v rest) o := by
        rw [step_eq hb (by rw [hbody v o hn, a1]; exact RV.noConfusion), hbody v o hn]
      have s2 : step e l (.sess h (.create (some (secretFor typ v' rest)) true)) = addObject e l s (secretFor typ v' rest) (o.wd (.symm b')) := by
        rw [step_eq hb (by rw [hbody v' _ n6, a2]; exact RV.noConfusion), hbody v' _ n6]
      rw [s1, s2, a1, a2]
      refine ⟨by rw [hk], (tk_store ?_).1⟩
      refine ⟨rfl, .cons (.inr ⟨hk, fun t htm hcur => ?_, ?_⟩) (AllPairs.diag fun _ _ => .inl rfl), Int.not_le.mp hc⟩
      · exact absurd (ha t htm _ hcur) (Nat.lt_irrefl _)
      · have h1 : ¬ o.typ = CKK_RSA := by rw [n1]; rcases ht with rfl | rfl <;> decide
        have h2 : ¬ o.typ = CKK_EC := by rw [n1]; rcases ht with rfl | rfl <;> decide
        refine ⟨⟨.symm b', _, rfl⟩, z1, .inr z2, ?_, rfl, ?_⟩
        · show o.data.SamePublic (.symm b')
          rw [n3]
          exact n4.symm
        · unfold canEncode
          show (if o.typ = CKK_RSA then _ else if o.typ = CKK_EC then _ else true) = _
          dsimp only
          rw [if_neg h1, if_neg h1, if_neg h2, if_neg h2]

/-- **C135**, from the creation of the key on: an application creates a secret key on the token, with one value or with another of the same length, and does
not ask for an extractable key. After any history both calls get the same reply, and so does everything that follows in any session until the key is used, the
user logs in anew or the library is shut down. -/
theorem c135_created (hh : HashLen e) (hr : RandLen e) (hx : e.key.Lawful) {l₀ : Lib} (h₀ : Start l₀) (hd : NoToken l₀) (cs : List Call)
    {h k typ : Nat} {v v' : Bytes} {rest : List Entry} (hf : FreeOfKey rest) (hne : ∀ en ∈ rest, en.typ ≠ .extractable) (hv : v.length = v'.length)
    (ht : typ = CKK_AES ∨ typ = CKK_GENERIC_SECRET)
    (hok : answer e (run e l₀ cs) (createCall h (secretFor typ v rest)) = { rv := .ok, handle := some k })
    (ds : List Call) (hds : ∀ c ∈ ds, ¬ EmploysAny k c ∧ ¬ Reopens c) :
    replies e (run e l₀ cs) (createCall h (secretFor typ v' rest) :: ds) =
    replies e (run e l₀ cs) (createCall h (secretFor typ v rest) :: ds) := by
  have hi := h₀.sinv.run e cs
  have hc := (Start.capInv h₀ hd).run hh hr h₀.sinv cs
  have ha := h₀.aged.run hh hr h₀.sinv (Start.capInv h₀ hd) cs
  have hb : (run e l₀ cs).bad = false := by
    cases hb : (run e l₀ cs).bad with
    | false => rfl
    | true => unfold answer at hok; rw [step_bad hb] at hok; cases hok
  obtain ⟨g1, g2⟩ := create_muteTok hb ha hf hne hv ht hok
  unfold replies
  rw [hok, g1, tk_replies hh hr hx ds hds (hi.step e _) (hc.step hh hr hi _) g2]

namespace Demo

/-- Calls that do not use the token's key: they look at it in another session, search for it, copy it, change the PIN, log out, look again, close the
sessions and reset the token. -/
def lookingOn : List Call :=
  [.slot 1 (.openSession true true true),
   readCall 65537 tok1 [.of .label [0], .of .value (List.replicate 16 0)], .sess 65537 (.findInit (some [.of .label [107]])), .sess 65537 (.findNext true 4),
   .sess 65537 .findFinal, .sess 65537 (.copy tok1 (some [.of .label [108]]) true), .sess 65538 (.setPin (some userPin) (some userPin)),
   .sess 65538 .logout, readCall 65537 tok1 [.of .value (List.replicate 16 0)], .sess 65537 .close, .sess 65538 .close, .slot 1 (.initToken (some soPin) (some label))]

/-- The hypotheses of `c135_created` are met: the key is created, looked at, found, copied, put away and destroyed with the token. -/
example :
    let l := run env fresh setup
    FreeOfKey plainRest ∧ (∀ en ∈ plainRest, en.typ ≠ .extractable) ∧
    answer env l (createCall 65538 (secretFor CKK_AES (List.replicate 16 7) plainRest)) = { rv := .ok, handle := some tok1 } ∧
    (∀ c ∈ lookingOn, ¬ EmploysAny tok1 c ∧ ¬ Reopens c) ∧
    (replies env l (createCall 65538 (secretFor CKK_AES (List.replicate 16 7) plainRest) :: lookingOn)).map (·.rv) =
      [.ok, .ok, .ok, .ok, .ok, .ok, .ok, .ok, .ok, .ok, .ok, .ok, .ok] ∧
    (replies env l (createCall 65538 (secretFor CKK_AES (List.replicate 16 7) plainRest) :: lookingOn))[4]?.map (·.found) = some [tok1] := by
  refine ⟨?_, ?_, by decide +kernel, ?_, by decide +kernel, by decide +kernel⟩
  · unfold FreeOfKey plainRest; decide
  · unfold plainRest; decide
  · intro c hc
    simp only [lookingOn, readCall, List.mem_cons, List.not_mem_nil, or_false] at hc
    rcases hc with rfl | rfl | rfl | rfl | rfl | rfl | rfl | rfl | rfl | rfl | rfl | rfl <;> exact ⟨fun ⟨_, h⟩ => h, id⟩

/-- The rules are needed. Two values can be told apart once the key is used, here to sign in another session, and by reading the key if it was made
extractable. -/
example :
    let l := run env fresh (setup ++ [.slot 1 (.openSession true true true)])
    let sign := [Call.sess 65537 (.cryptInit .sign (some (.hmac .sha256, .null 0)) tok1), .sess 65537 (.crypt (.sign (some [1]) (.buf 32) 0))]
    let look := [readCall 65537 tok1 [.of .value (List.replicate 16 0)]]
    (replies env l (createCall 65538 (secretFor CKK_GENERIC_SECRET (List.replicate 16 7) plainRest) :: sign)).map (·.out) ≠
      (replies env l (createCall 65538 (secretFor CKK_GENERIC_SECRET (List.replicate 16 8) plainRest) :: sign)).map (·.out) ∧
    (replies env l (createCall 65538 (secretFor CKK_AES (List.replicate 16 7) [.of .extractable [1]]) :: look)).map (·.tmpl) ≠
      (replies env l (createCall 65538 (secretFor CKK_AES (List.replicate 16 8) [.of .extractable [1]]) :: look)).map (·.tmpl) := by
  exact ⟨by decide +kernel, by decide +kernel⟩

/-- The hypothesis `DifferOn` of `c135_silent` is met by the library after the creation and the same library with another key value. -/
example :
    let l := run env fresh (setup ++ [createCall 65538 (secretFor CKK_AES (List.replicate 16 7) plainRest)])
    let o := l.token.objs.headD {}
    DifferOn env tok1 l { l with token := { l.token with objs := l.token.objs.map fun p =>
      if p.uid = o.uid then { o with data := .symm (List.replicate 16 8), keyData := some [1] } else p }, disk := fun _ => none } := by
  intro l o
  have hd : o.data = .symm (List.replicate 16 7) := by decide +kernel
  refine ⟨by decide +kernel, o, { o with data := .symm (List.replicate 16 8), keyData := some [1] }, _, by decide +kernel, by decide +kernel, by decide +kernel,
    ⟨⟨_, _, rfl⟩, .inr (by decide +kernel), .inr (by decide +kernel), ?_, by decide +kernel, by decide +kernel⟩, rfl⟩
  show o.data.SamePublic (.symm (List.replicate 16 8))
  rw [hd]
  rfl

end Demo

end Verif
