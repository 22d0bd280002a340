import Verif.Spec.Codes
import Verif.Props.Trace
import Verif.Props.Lasting
import Verif.Props.Agree
import Verif.Props.AtRest

/-!
# C113: the status codes of each function
-/

namespace Verif

variable {e : Env}

/-- The code is undefined behaviour or in the list. -/
def Among (L : List RV) (rv : RV) : Prop := (RV.ub :: L).contains rv = true

theorem Among.sub {L M : List RV} (h : L.all M.contains = true) {rv : RV} (hr : Among L rv) : Among M rv := by
  unfold Among at *
  simp only [List.contains_eq_mem, List.mem_cons, decide_eq_true_eq, List.all_eq_true] at *
  rcases hr with hr | hr
  · exact .inl hr
  · exact .inr (h _ hr)

theorem Among.ne {L : List RV} {a rv : RV} (ha : rv ≠ a) (hr : Among (a :: L) rv) : Among L rv := by
  unfold Among at *
  simp only [List.contains_eq_mem, List.mem_cons, decide_eq_true_eq] at *
  rcases hr with hr | hr | hr
  · exact .inl hr
  · exact absurd hr ha
  · exact .inr hr

theorem Among.mem {L : List RV} {rv : RV} (hr : Among L rv) (hu : rv ≠ .ub) : rv ∈ L := by
  unfold Among at *
  simp only [List.contains_eq_mem, List.mem_cons, decide_eq_true_eq] at *
  exact hr.resolve_left hu

/-! ## Templates -/

theorem checkAttributes_codes (set : Bool) (t : List Entry) :
    Among [.ok, .attributeTypeInvalid, .bufferTooSmall, .attributeValueInvalid] (checkAttributes set t) := by
  induction t with
  | nil => rfl
  | cons en t ih =>
    unfold checkAttributes
    split
    · exact ih
    · unfold checkEntry
      repeat' split
      all_goals rfl

theorem checkAttributes_read_codes (t : List Entry) :
    Among [.ok, .attributeTypeInvalid, .bufferTooSmall] (checkAttributes false t) := by
  induction t with
  | nil => rfl
  | cons en t ih =>
    unfold checkAttributes
    split
    · exact ih
    · unfold checkEntry
      simp only [Bool.and_false, Bool.false_and, Bool.false_eq_true, if_false]
      repeat' split
      all_goals rfl

theorem setAttrs_codes (t : List Entry) (o : Obj) :
    Among [.ok, .attributeValueInvalid, .bufferTooSmall, .functionFailed] (setAttrs o t).1 := by
  induction t generalizing o with
  | nil => rfl
  | cons en t ih =>
    unfold setAttrs
    dsimp only
    split
    · exact ih _
    all_goals rfl

/-- The codes of setting attributes. -/
def setCodes : List RV :=
  [.objectHandleInvalid, .ok, .attributeTypeInvalid, .bufferTooSmall, .attributeValueInvalid, .functionFailed, .sessionReadOnly]

theorem setAttributeValue_codes (x : KeyExt) (rw : Bool) (o : Obj) (t : List Entry) :
    Among setCodes (setAttributeValue x rw o t).1 := by
  unfold setAttributeValue
  dsimp only
  split
  · rfl
  split
  · exact (checkAttributes_codes ..).sub rfl
  split
  · rfl
  split
  · rfl
  split
  · exact (setAttrs_codes ..).sub rfl
  · rfl
  · rfl

theorem setAttributeValue_known_codes (x : KeyExt) (rw : Bool) {o : Obj} (t : List Entry) (hk : keyParams o ≠ none) :
    Among setCodes.tail (setAttributeValue x rw o t).1 := by
  unfold setAttributeValue
  dsimp only
  split
  · rfl
  split
  · exact (checkAttributes_codes ..).sub rfl
  split
  · exact absurd (by assumption) hk
  split
  · rfl
  split
  · exact (setAttrs_codes ..).sub rfl
  · rfl
  · rfl

theorem getEntries_codes (x : KeyExt) (o : Obj) (t : List Entry) :
    Among [.ok, .attributeTypeInvalid, .bufferTooSmall, .unavailable, .functionFailed] (getEntries x o t).1 := by
  induction t with
  | nil => rfl
  | cons en t ih =>
    unfold getEntries
    dsimp only
    split
    · exact ih
    · unfold getEntry
      dsimp only
      split <;> rfl

theorem getAttributeValue_codes (x : KeyExt) (o : Obj) (t : List Entry) :
    Among [.ok, .attributeTypeInvalid, .bufferTooSmall, .unavailable, .functionFailed] (getAttributeValue x o t).1 := by
  unfold getAttributeValue
  dsimp only
  split
  · exact (checkAttributes_read_codes t).sub rfl
  · exact getEntries_codes ..

theorem tokenByte_codes {t : List Entry} {d : Nat} {rv : RV} (h : tokenByte t d = .error rv) : rv = .attributeValueInvalid := by
  unfold tokenByte at h
  repeat' split at h
  all_goals first | cases h; rfl | cases h

theorem templClass_codes {t : List Entry} {rv : RV} (h : templClass t = .error rv) : rv = .attributeValueInvalid := by
  unfold templClass at h
  repeat' split at h
  all_goals first | cases h; rfl | cases h

theorem templUlong_codes {t : List Entry} {a : CKA} {rv : RV} (h : templUlong t a = .error rv) :
    Among [.attributeValueInvalid, .templateIncomplete] rv := by
  unfold templUlong at h
  repeat' split at h
  all_goals first | cases h; rfl | cases h

theorem addObject_codes (l : Lib) (s : Session) (t : List Entry) (o : Obj) :
    Among [.ok, .functionFailed, .attributeValueInvalid] (addObject e l s t o).2.rv := by
  unfold addObject
  split
  · rename_i h; rw [tokenByte_codes h]; rfl
  split <;> rfl

theorem keyParams_known {o : Obj} (hk : keyTypeOk o.typ = true) : keyParams o ≠ none := by
  unfold keyTypeOk at hk
  simp only [Bool.or_eq_true, beq_iff_eq] at hk
  unfold keyParams
  split
  · nofun
  split
  · nofun
  split
  · nofun
  split
  · nofun
  split
  · nofun
  · rename_i h1 h2 h3 h4
    rcases hk with (((h | h) | h) | h) | h
    · exact absurd h h1
    · exact absurd h h2
    · exact absurd h h3
    · exact absurd (.inl h) h4
    · exact absurd (.inr h) h4

/-- The codes of making an object. -/
def makeCodes : List RV := .templateIncomplete :: setCodes.tail

theorem createObject_codes (s : Session) (t : List Entry) : Among makeCodes (createObject e s t).1 := by
  unfold createObject
  split
  · rename_i h; rw [templClass_codes h]; rfl
  split
  · rename_i hc
    split
    · rename_i h; exact (templUlong_codes h).sub rfl
    split
    · refine (setAttributeValue_known_codes _ _ _ ?_).sub rfl
      unfold keyParams
      rw [if_pos hc]
      nofun
    · rfl
  · split
    · rename_i h; exact (templUlong_codes h).sub rfl
    split
    · rename_i hk
      refine (setAttributeValue_known_codes _ _ _ ?_).sub rfl
      exact keyParams_known hk
    · rfl

theorem newObject_codes (s : Session) {typ : Nat} (cls : Nat) (t : List Entry) (hk : keyTypeOk typ = true) :
    Among setCodes.tail (newObject e s typ cls t).1 := by
  exact setAttributeValue_known_codes _ _ _ (keyParams_known hk)

/-! ## Operations -/

theorem withArgs_codes {L : List RV} {s : OpSt} {curr : Option Obj} {d : Option Bytes} {ob : OutBuf} {k : Obj → Bytes → OpSt × Out}
    (h1 : L.contains .argumentsBad = true) (h2 : L.contains .operationNotInitialized = true)
    (hk : ∀ o d, Among L (k o d).2.rv) : Among L (withArgs s curr d ob k).2.rv := by
  unfold withArgs Among
  repeat' split
  all_goals first
    | exact hk _ _
    | (simp only [List.contains_cons, h1, h2, Bool.or_true]; done)

theorem needInit_codes {L : List RV} {s : OpSt} {i : OpInit} {k : OpSt × Out}
    (h2 : L.contains .operationNotInitialized = true) (hk : Among L k.2.rv) : Among L (needInit s i k).2.rv := by
  unfold needInit
  repeat' split
  · exact hk
  · rfl
  · unfold Among; simp only [List.contains_cons, h2, Bool.or_true]

theorem sized_codes {L : List RV} {s : OpSt} {ob : OutBuf} {n : Nat} {k : OpSt × Out}
    (h1 : L.contains .argumentsBad = true) (h2 : L.contains .bufferTooSmall = true) (h3 : L.contains .ok = true)
    (hk : Among L k.2.rv) : Among L (sized s ob n k).2.rv := by
  unfold sized
  repeat' split
  all_goals first
    | exact hk
    | (unfold Among; simp only [List.contains_cons, h1, h2, h3, Bool.or_true]; done)

theorem finish_codes {L : List RV} {s : OpSt} {r : Option Bytes} (h1 : L.contains .functionFailed = true)
    (h3 : L.contains .ok = true) : Among L (finish s r).2.rv := by
  unfold finish
  split <;> (unfold Among; simp only [List.contains_cons, h1, h3, Bool.or_true])

theorem finishSig_codes {L : List RV} {s : OpSt} {n : Nat} {r : Option Bytes} (h1 : L.contains .functionFailed = true)
    (h3 : L.contains .ok = true) : Among L (finishSig s n r).2.rv := by
  unfold finishSig
  split <;> (unfold Among; simp only [List.contains_cons, h1, h3, Bool.or_true])

theorem finishVerify_codes {L : List RV} {s : OpSt} {r : Option Bool} (h1 : L.contains .functionFailed = true)
    (h2 : L.contains .signatureInvalid = true) (h3 : L.contains .ok = true) : Among L (finishVerify s r).2.rv := by
  unfold finishVerify
  split <;> (unfold Among; simp only [List.contains_cons, h1, h2, h3, Bool.or_true])

/-- One step through a data function. -/
local macro "code_step" : tactic => `(tactic| first
  | with_reducible refine finish_codes ?_ ?_
  | with_reducible refine finishSig_codes ?_ ?_
  | with_reducible refine finishVerify_codes ?_ ?_ ?_
  | with_reducible refine needInit_codes ?_ ?_
  | with_reducible refine sized_codes ?_ ?_ ?_ ?_
  | unfold cbcFinal
  | (unfold gcmDecrypt; dsimp only)
  | split
  | rfl)

theorem dataCall_codes (x : Crypto) (s : OpSt) (curr : Option Obj) (c : DataCall) :
    Among (c.codes ++ (AnyCall.otherCodes (.main (.sess 0 (.crypt c))))) (c.run x s curr).2.rv := by
  cases c <;> simp only [DataCall.run, verify, signUpdate, verifyUpdate]
  case verify d sg =>
    cases sg with
    | none => rfl
    | some sg =>
      refine withArgs_codes rfl rfl fun o d => ?_
      repeat' code_step
  all_goals
    first
      | unfold encrypt
      | unfold encryptUpdate
      | unfold encryptFinal
      | unfold decrypt
      | unfold decryptUpdate
      | unfold decryptFinal
      | unfold sign
      | unfold signFinal
      | unfold verifyFinal
      | unfold macUpdate
    refine withArgs_codes rfl rfl fun o d => ?_
    try dsimp only
    repeat' code_step

theorem initCall_codes (x : Crypto) (k : Kind) (s : OpSt) (o : Obj) (m : Mech) (p : MechParam) :
    Among [.ok, .keyTypeInconsistent, .mechanismParamInvalid, .mechanismInvalid, .functionFailed] (initCall x k s o m p).2 := by
  unfold initCall encryptInit decryptInit signInit verifyInit
  repeat' split
  all_goals first
    | rfl
    | (unfold plainInit; repeat' split
       all_goals rfl)
    | (unfold cbcInit; repeat' split
       all_goals rfl)
    | (unfold gcmInit; repeat' split
       all_goals rfl)
    | (unfold oaepInit; dsimp only; repeat' split
       all_goals rfl)
    | (unfold pssInit; dsimp only; repeat' split
       all_goals rfl)
    | (unfold hmacInit; dsimp only; repeat' split
       all_goals rfl)

theorem unwrapTemplate_codes (t : List Entry) :
    Among [.ok, .templateIncomplete, .attributeValueInvalid, .keyNotWrappable] (unwrapTemplate t) := by
  unfold unwrapTemplate findValidAttr
  repeat' split
  all_goals first
    | rfl
    | (rename_i h; repeat' split at h
       all_goals first
         | (cases h; rfl)
         | cases h)

theorem deriveSecret_codes {o : Obj} {m : DeriveMech} {rv : RV} (h : deriveSecret e o m = .error rv) :
    Among [.mechanismInvalid, .mechanismParamInvalid, .functionFailed] rv := by
  unfold deriveSecret at h
  repeat' split at h
  all_goals first
    | (cases h; rfl)
    | cases h

theorem deriveTail_codes (x : KeyExt) (o : Obj) (b : Bytes) : Among [.ok, .functionFailed] (deriveTail x o b).rv := by
  unfold deriveTail
  dsimp only
  repeat' split
  all_goals rfl

theorem pinSet_codes (r : Lib × Bool) : Among [.ok, .functionFailed] (pinSet r).2.rv := by
  unfold pinSet
  dsimp only
  split <;> rfl

theorem addPair_codes (l : Lib) (s : Session) (tp tq : List Entry) (o o' : Obj) :
    Among [.ok, .functionFailed, .attributeValueInvalid] (addPair e l s tp tq o o').2.rv := by
  unfold addPair
  dsimp only
  split
  · exact addObject_codes ..
  split
  · rfl
  split
  · exact addObject_codes ..
  · rfl

/-- Beginning an encryption with CBC and padding, and going on with it. -/
theorem padEncrypt_codes (x : Crypto) {s : OpSt} {w : Obj} {p : MechParam} {d : Bytes} {ob : OutBuf} {n : Nat}
    (hi : (encryptInit s w .aesCbcPad p).2 = .ok) (ho : ob ≠ .noLen) :
    Among [.ok, .bufferTooSmall, .functionFailed] (encrypt x (encryptInit s w .aesCbcPad p).1 (some w) (some d) ob n).2.rv := by
  have h : ((encryptInit s w .aesCbcPad p).1.mech = .aesCbcPad ∧ (encryptInit s w .aesCbcPad p).1.init = .aesCbcPadEnc) := by
    unfold encryptInit cbcInit at hi ⊢
    dsimp only at hi ⊢
    repeat' split at hi
    all_goals first
      | (cases hi; done)
      | skip
    simp_all [OpSt.started]
  generalize (encryptInit s w .aesCbcPad p).1 = s' at h
  unfold encrypt withArgs
  dsimp only
  rw [if_neg ho, h.1]
  dsimp only
  unfold needInit sized
  rw [if_pos h.2]
  split
  · exact absurd rfl ho
  · rfl
  · split
    · rfl
    · unfold finish; rfl

theorem padDecrypt_codes (x : Crypto) {s : OpSt} {w : Obj} {p : MechParam} {d : Bytes} {m n : Nat}
    (hi : (decryptInit s w .aesCbcPad p).2 = .ok) :
    Among [.ok, .functionFailed] (decrypt x (decryptInit s w .aesCbcPad p).1 (some w) (some d) (.buf m) n).2.rv := by
  have h : ((decryptInit s w .aesCbcPad p).1.mech = .aesCbcPad ∧ (decryptInit s w .aesCbcPad p).1.init = .aesCbcPadDec) := by
    unfold decryptInit cbcInit at hi ⊢
    dsimp only at hi ⊢
    repeat' split at hi
    all_goals first
      | (cases hi; done)
      | skip
    simp_all [OpSt.started]
  generalize (decryptInit s w .aesCbcPad p).1 = s' at h
  unfold decrypt withArgs
  dsimp only
  rw [if_neg (by nofun), h.1]
  dsimp only
  unfold needInit
  rw [if_pos h.2]
  exact finish_codes rfl rfl

theorem padInit_codes {s : OpSt} {w : Obj} {p : MechParam} {i : OpInit} (hw : w.typ = CKK_AES) :
    Among [.ok, .mechanismParamInvalid, .functionFailed] (cbcInit s w .aesCbcPad p i).2 := by
  unfold cbcInit
  rw [if_neg (not_not_intro hw)]
  repeat' split
  all_goals rfl

/-- The codes of a call on a session found. -/
def SessCall.allCodes (h : Nat) (c : SessCall) : List RV := c.codes ++ AnyCall.otherCodes (.main (.sess h c))

theorem sessCall_codes (l : Lib) (s : Session) (h : Nat) (c : SessCall) :
    Among (SessCall.allCodes h c) (sessCall e l s c).2.rv := by
  cases c with
  | close => rfl
  | info ptr => simp only [sessCall]; split <;> rfl
  | login u pin now =>
    simp only [sessCall]
    unfold login
    repeat' split
    all_goals first
      | rfl
      | (dsimp only; unfold soLogin; dsimp only; repeat' split
         all_goals rfl)
      | (dsimp only; unfold userLogin; dsimp only; repeat' split
         all_goals rfl)
  | logout => rfl
  | initPin pin =>
    simp only [sessCall]
    unfold initPin
    repeat' split
    all_goals first
      | exact (pinSet_codes _).sub rfl
      | rfl
  | setPin old new =>
    simp only [sessCall]
    unfold setPin
    repeat' split
    all_goals first
      | exact (pinSet_codes _).sub rfl
      | rfl
  | create t ptr =>
    simp only [sessCall]
    unfold cCreate
    split
    · rfl
    split
    · rfl
    split
    · rfl
    have hc := createObject_codes (e := e) s ‹_›
    split
    · exact (addObject_codes ..).sub rfl
    · rename_i hx
      rw [hx] at hc
      exact hc.sub rfl
  | copy o t ptr =>
    simp only [sessCall]
    unfold cCopy
    dsimp only
    repeat' split
    all_goals first
      | exact (getAttributeValue_codes ..).sub rfl
      | exact (setAttributeValue_codes ..).sub rfl
      | rfl
      | (rename_i hx; rw [tokenByte_codes hx]; rfl)
  | destroy o =>
    simp only [sessCall]
    unfold cDestroy
    repeat' split
    all_goals rfl
  | size o ptr => simp only [sessCall]; repeat' split
                  all_goals rfl
  | getAttr o t =>
    simp only [sessCall]
    unfold cGetAttr
    repeat' split
    all_goals first
      | rfl
      | exact (getAttributeValue_codes ..).sub rfl
  | setAttr o t =>
    simp only [sessCall]
    unfold cSetAttr
    repeat' split
    all_goals first
      | rfl
      | exact (setAttributeValue_codes ..).sub rfl
  | findInit t =>
    simp only [sessCall]
    unfold cFindInit
    dsimp only
    repeat' split
    all_goals first
      | rfl
      | (rename_i hx; rw [tokenByte_codes hx]; rfl)
  | findNext ptr max =>
    simp only [sessCall]
    unfold cFindNext
    split <;> rfl
  | findFinal => rfl
  | cryptInit k m key =>
    simp only [sessCall]
    unfold cCryptInit
    dsimp only
    repeat' split
    all_goals first
      | rfl
      | exact (initCall_codes ..).sub rfl
  | crypt c =>
    have hc : ∀ o, Among (SessCall.allCodes h (.crypt c)) (c.run e.crypto s.op o).2.rv := fun o => by
      have := dataCall_codes e.crypto s.op o c
      cases c <;> exact this
    simp only [sessCall]
    unfold cCrypt
    split
    · exact hc _
    · exact hc _
    · dsimp only
      split
      · rename_i hx; have := hc none; rw [hx] at this; exact this
      · rfl
  | genKey m t ptr =>
    simp only [sessCall]
    unfold cGenKey
    split
    · split
      · rfl
      split
      · rfl
      split
      · rfl
      have hc := newObject_codes (e := e) s CKO_SECRET_KEY ‹_› (typ := CKK_AES) rfl
      split
      · exact (addObject_codes ..).sub rfl
      · rename_i hx
        rw [hx] at hc
        exact hc.sub rfl
    · rfl
  | genPair m tp tq ptrs =>
    simp only [sessCall]
    unfold cGenPair
    split
    · split
      · rfl
      split
      · rfl
      rename_i tp' tq' _ _ typ gen hg
      have hk : keyTypeOk typ = true := by
        unfold pairGen at hg
        split at hg <;> cases hg <;> rfl
      split
      · rfl
      have hc := newObject_codes (e := e) s CKO_PUBLIC_KEY tp' hk
      have hd := newObject_codes (e := e) s CKO_PRIVATE_KEY tq' hk
      split
      · split
        · split
          · exact (addPair_codes ..).sub rfl
          · rfl
          · rfl
        · rename_i hx
          rw [hx] at hd
          exact hd.sub rfl
      · rename_i hx
        rw [hx] at hc
        exact hc.sub rfl
    · rfl
  | wrap m wk key ob =>
    simp only [sessCall]
    unfold cWrap
    split
    · rfl
    split
    · rfl
    rename_i hob
    split
    · rfl
    split
    · rfl
    split
    · rfl
    split
    · rfl
    split
    · rfl
    split
    · rfl
    rename_i hm
    split
    · rfl
    rename_i hw
    cases Decidable.not_not.mp hm
    dsimp only
    split
    · exact (padInit_codes (Decidable.not_not.mp hw)).sub rfl
    · rename_i hi
      exact (padEncrypt_codes _ (Decidable.not_not.mp hi) hob).sub rfl
  | unwrap m wk d t ptr =>
    simp only [sessCall]
    unfold cUnwrap
    split
    · rfl
    split
    · split
      · rfl
      split
      · rfl
      split
      · rfl
      rename_i hm
      cases Decidable.not_not.mp hm
      dsimp only
      split
      · exact (unwrapTemplate_codes _).sub rfl
      split
      · rfl
      rename_i hw
      split
      · exact (padInit_codes (Decidable.not_not.mp hw)).sub rfl
      rename_i hi
      split
      · exact (padDecrypt_codes _ (Decidable.not_not.mp hi)).sub rfl
      · unfold addRsaPrivate
        have hc := newObject_codes (e := e) s CKO_PRIVATE_KEY ‹List Entry› (typ := CKK_RSA) rfl
        split
        · split
          · rfl
          · exact (addObject_codes ..).sub rfl
        · rename_i hx
          rw [hx] at hc
          exact hc.sub rfl
    · rfl
  | derive m base t ptr =>
    simp only [sessCall]
    unfold cDerive
    split
    · split
      · rfl
      split
      · rfl
      split
      · rename_i hx; exact (deriveSecret_codes hx).sub rfl
      have hc := createObject_codes (e := e) s ‹List Entry›
      split
      · dsimp only
        split
        · exact (deriveTail_codes ..).sub rfl
        · exact (addObject_codes ..).sub rfl
      · rename_i hx
        rw [hx] at hc
        exact hc.sub rfl
    · rfl
  | random ptr len =>
    simp only [sessCall]
    unfold cRandom
    repeat' split
    all_goals rfl

theorem restSess_codes (l : Lib) (s : Session) (h : Nat) (c : RestSess) :
    Among (c.codes ++ AnyCall.otherCodes (.rest (.sess h c))) (restSess l s c).2 := by
  cases c <;> simp only [restSess] <;> repeat' split
  all_goals rfl

/-- C113.  Whatever the state of the library and the arguments, a function answers one of the
codes that the standard gives it, or one of those in `otherCodes`. -/
theorem c113_partial (l : Lib) (c : AnyCall) (hu : (anyStep e l c).2.rv ≠ .ub) :
    (anyStep e l c).2.rv ∈ c.codes ∨ (anyStep e l c).2.rv ∈ c.otherCodes := by
  refine List.mem_append.mp (Among.mem ?_ hu)
  cases c with
  | main c =>
    simp only [anyStep, AnyResp.rv]
    unfold step
    split
    · rfl
    dsimp only
    have key : Among (AnyCall.codes (.main c) ++ AnyCall.otherCodes (.main c)) (callBody e l c).2.rv := by
      cases c with
      | cInit => rfl
      | cFinal => rfl
      | slot id c =>
        simp only [callBody]
        split
        · cases c <;> rfl
        split
        · cases c <;> rfl
        cases c with
        | tokenInfo ptr now => simp only [slotCall]; split <;> rfl
        | initToken pin label =>
          simp only [slotCall]
          unfold initToken
          repeat' split
          all_goals first
            | exact (pinSet_codes _).sub rfl
            | rfl
        | openSession rw serial ptr =>
          simp only [slotCall]
          unfold openSession
          dsimp only
          repeat' split
          all_goals rfl
        | closeAll => rfl
      | sess h c =>
        simp only [callBody]
        split
        · cases c <;> first | rfl | (rename_i d; cases d <;> rfl)
        split
        · cases c <;> first | rfl | (rename_i d; cases d <;> rfl)
        · exact sessCall_codes ..
    split <;> exact key
  | rest c =>
    simp only [anyStep, AnyResp.rv]
    unfold restStep
    split
    · rfl
    unfold restBody
    split
    · cases c <;> first | rfl | (rename_i d; cases d <;> rfl)
    split
    case h_7 =>
      split
      · rename_i d _ _; cases d <;> rfl
      · exact restSess_codes ..
    all_goals
      try unfold getSlotList
      try unfold getMechanismList
      try unfold ListOut.resp
      repeat' split
      all_goals rfl

/-! ## The other codes occur -/

namespace Demo

/-- After the calls `cs` the call `c` answers `rv`, a code that the standard does not give the
function. -/
def Unexpected (e : Env) (cs : List Call) (c : AnyCall) (rv : RV) : Prop :=
  (anyStep e (run e fresh cs) c).2.rv = rv ∧ rv ∉ c.codes

/-- A call on the session open. -/
def on38 (c : SessCall) : AnyCall := .main (.sess 65538 c)

/-- A truth value of two bytes. -/
def longBool : List Entry := aesTmpl false 7 ++ [.of .encrypt [1, 1]]

set_option maxRecDepth 20000 in
/-- C113 fails for the PIN functions: too short a PIN for `C_InitPIN`; `C_SetPIN` where there is no PIN. -/
theorem c113_violated_pin :
    Unexpected env (setup.take 4) (on38 (.initPin (some [1]))) .pinIncorrect ∧
    Unexpected env (setup.take 3) (on38 (.setPin (some userPin) (some newPin))) .userPinNotInitialized := by
  unfold Unexpected; decide

set_option maxRecDepth 20000 in
/-- C113 fails for the functions with templates: a value that is too long is a buffer too small; an
attribute a key does not have makes the answer a number that is not a status code. -/
theorem c113_violated_template :
    Unexpected env setup (on38 (.create (some longBool) true)) .bufferTooSmall ∧
    Unexpected env withKey (on38 (.setAttr tok1 (some [.of .encrypt [1, 1]]))) .bufferTooSmall ∧
    Unexpected env setup (on38 (.genKey (some (.aesKeyGen, .null 0)) (some longBool) true)) .bufferTooSmall ∧
    Unexpected env setup (on38 (.genPair (some (.rsaKeyPairGen, .null 0)) (some longBool) (some []) true)) .bufferTooSmall ∧
    Unexpected env withKey (on38 (.copy tok1 (some [.of .encrypt [1, 1]]) true)) .bufferTooSmall ∧
    Unexpected env withKey (on38 (.copy tok1 (some [.of .modulus [1]]) true)) .unavailable ∧
    Unexpected env withKey (on38 (.getAttr tok1 (some [.of .modulus [1]]))) .unavailable := by
  unfold Unexpected; decide

set_option maxRecDepth 20000 in
/-- C113 fails for the functions that take a key: a key that does not exist is an invalid object. -/
theorem c113_violated_key (k : Kind) :
    Unexpected env setup (on38 (.cryptInit k (some (.aesCbcPad, .null 0)) 5)) .objectHandleInvalid ∧
    Unexpected env setup (on38 (.derive (some .other) 5 (some []) true)) .objectHandleInvalid ∧
    Unexpected env setup (on38 (.wrap (some (.aesCbcPad, .null 0)) 5 5 (.buf 0))) .objectHandleInvalid ∧
    Unexpected env setup (.rest (.sess 65538 (.digestKey 5))) .objectHandleInvalid ∧
    Unexpected env setup (.rest (.sess 65538 (.signRecoverInit true 5))) .objectHandleInvalid ∧
    Unexpected env setup (.rest (.sess 65538 (.verifyRecoverInit true 5))) .objectHandleInvalid := by
  cases k <;> unfold Unexpected <;> decide

set_option maxRecDepth 20000 in
/-- C113 fails for wrapping: in a session that is read-only; unwrapping a secret key. -/
theorem c113_violated_wrap :
    Unexpected env (setup ++ [openCall false]) (.main (.sess 65537 (.wrap (some (.aesCbcPad, .null 0)) 5 5 (.buf 0)))) .sessionReadOnly ∧
    Unexpected env withKey (on38 (.unwrap (some (.aesCbcPad, .null 0)) tok1 (some [1]) (some (aesTmpl false 7)) true)) .keyNotWrappable := by
  unfold Unexpected; decide

set_option maxRecDepth 40000 in
/-- C113 fails for `C_DeriveKey`: a value of the wrong length. -/
theorem c113_violated_derive :
    Unexpected dhEnv (setup ++ [createCall 65538 dhTmpl]) (on38 (.derive (some (.dh (some [8]))) tok1 (some longBool) true)) .bufferTooSmall := by
  unfold Unexpected; decide

set_option maxRecDepth 20000 in
/-- C113 fails for `C_DecryptFinal`: half a block is data, and not ciphertext, of a wrong length. -/
theorem c113_violated_decrypt :
    Unexpected env (withKey ++ [initOf 65538 .decrypt .aesCbc (.raw (List.replicate 16 0)) tok1,
        dataOf 65538 (.decryptUpdate (some [1]) (.buf 16))]) (on38 (.crypt (.decryptFinal (.buf 16)))) .dataLenRange := by
  unfold Unexpected; decide

/-- A key is used to encrypt. -/
def encrypting : List Call := withKey ++ [initOf 65538 .encrypt .aesCbc (.raw (List.replicate 16 0)) tok1]

/-- A key is used to sign. -/
def signing : List Call :=
  setup ++ [createCall 65538 [.of .cls (ulong CKO_SECRET_KEY), .of .keyType (ulong CKK_GENERIC_SECRET), .of .value [7]],
    initOf 65538 .sign (.hmac .sha256) (.null 0) 1]

set_option maxRecDepth 20000 in
/-- C113 fails for the functions that process data while an operation with another mechanism is
active: the mechanism, which is not among their arguments, is said to be invalid. -/
theorem c113_violated_data :
    (∀ c ∈ [DataCall.sign (some []) (.buf 0) 0, .signUpdate (some []), .signFinal (.buf 0), .verify (some []) (some []),
        .verifyUpdate (some []), .verifyFinal (some [])], Unexpected env encrypting (on38 (.crypt c)) .mechanismInvalid) ∧
    (∀ c ∈ [DataCall.encrypt (some []) (.buf 0) 0, .encryptUpdate (some []) (.buf 0), .encryptFinal (.buf 0),
        .decrypt (some []) (.buf 0) 0, .decryptUpdate (some []) (.buf 0), .decryptFinal (.buf 0)],
      Unexpected env signing (on38 (.crypt c)) .mechanismInvalid) := by
  unfold Unexpected; decide

set_option maxRecDepth 20000 in
/-- Codes as in `c113_partial`: a wrong PIN, no such object, no key type. -/
example :
    (anyStep env (run env fresh (setup.take 6)) (on38 (.login .user (some newPin) 0))).2.rv = .pinIncorrect ∧
    (anyStep env (run env fresh setup) (on38 (.destroy 5))).2.rv = .objectHandleInvalid ∧
    (anyStep env (run env fresh setup) (on38 (.create (some []) true))).2.rv = .templateIncomplete := by
  decide

end Demo

end Verif
