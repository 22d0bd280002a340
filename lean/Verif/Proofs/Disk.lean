import Verif.Proofs.Pop
import Verif.Proofs.Pin
import Verif.Proofs.Codec

/-!
# What is known of the stored token
-/

namespace Verif

variable {e : Env} {ok : Nat → Prop}

/-! ## Reading back without bounds on numbers -/

theorem readsBack_int (v : Int) : ReadsBack Rd.int (wrInt v) (BitVec.ofInt 32 v).toInt := by
  have := ReadsBack.conv (w := wrInt v) (n := 4) (fun b => (BitVec.ofNat 32 (ofBytes b)).toInt) (length_beBytes 4 _)
    (r := Rd.int) (fun _ => rfl)
  rwa [wrInt, ofBytes_beBytes 4 _ (BitVec.ofInt 32 v).isLt, BitVec.ofNat_toNat, BitVec.setWidth_eq] at this

theorem readsBack_time (v : Int) : ReadsBack Rd.time (wrTime v) (BitVec.ofInt 64 v).toInt := by
  have := ReadsBack.conv (w := wrTime v) (n := 8) (fun b => (BitVec.ofNat 64 (ofBytes b)).toInt) (length_beBytes 8 _)
    (r := Rd.time) (fun _ => rfl)
  rwa [wrTime, ofBytes_beBytes 8 _ (BitVec.ofInt 64 v).isLt, BitVec.ofNat_toNat, BitVec.setWidth_eq] at this

theorem readsBack_ulong (v : Nat) : ReadsBack Rd.ulong (wrUlong v) (ofBytes (beBytes 8 v)) :=
  ReadsBack.conv (w := wrUlong v) (n := 8) ofBytes (length_beBytes 8 v) (r := Rd.ulong) (fun _ => rfl)

/-- The counters of an account after storing and loading. -/
def Account.stored (a : Account) : Account :=
  { a with fails := (BitVec.ofInt 32 a.fails).toInt, last := (BitVec.ofInt 64 a.last).toInt,
           timeout := (BitVec.ofInt 64 a.timeout).toInt }

/-- A record after storing and loading. -/
def TokenRec.stored (t : TokenRec) : TokenRec :=
  { t with so := t.so.stored, user := t.user.stored, types := t.types.map fun k => ofBytes (beBytes 8 k) }

/-- Arrays of the right length in an account. -/
structure Account.Shape (a : Account) : Prop where
  pin : a.pin.length ≤ 32
  seed : a.seed.length = 16

/-- Arrays of the right length in a token. -/
structure Shape (t : Token) : Prop where
  label : t.label.length = 32
  so : t.so.Shape
  user : t.user.Shape
  seed : t.seed.length = 16

theorem readsBack_acct (a : Account) (h : a.Shape) : ReadsBack rdAccount (wrAccount a) a.stored := by
  simp only [wrAccount, List.append_assoc]
  refine ReadsBack.bind (ReadsBack.array h.pin (by have := h.pin; omega)) ?_
  refine ReadsBack.bind (ReadsBack.fixed h.seed) ?_
  refine ReadsBack.bind (readsBack_int _) ?_
  refine ReadsBack.bind (readsBack_time _) ?_
  exact ReadsBack.map (fun t => ({ a.stored with timeout := t } : Account)) (readsBack_time _)

theorem readsBack_typs (l : List Nat) :
    ReadsBack (rdTypes l.length) (l.map wrUlong).flatten (l.map fun k => ofBytes (beBytes 8 k)) := by
  induction l with
  | nil => exact ReadsBack.pure _
  | cons k l ih =>
    refine ReadsBack.bind (readsBack_ulong k) ?_
    exact ReadsBack.map (fun ts => ofBytes (beBytes 8 k) :: ts) ih

theorem readsBack_tok (t : Token) (h : Shape t) (hc : t.objs.length < 2 ^ 31) :
    ReadsBack rdToken (wrToken t.toRec) t.toRec.stored := by
  simp only [wrToken, List.append_assoc]
  refine ReadsBack.bind (ReadsBack.fixed h.label) ?_
  refine ReadsBack.bind (readsBack_acct _ h.so) ?_
  refine ReadsBack.bind (readsBack_acct _ h.user) ?_
  refine ReadsBack.bind (ReadsBack.fixed h.seed) ?_
  have hi : IsInt t.toRec.types.length := by
    have : t.toRec.types.length = t.objs.length := by simp [Token.toRec]
    rw [this]
    constructor <;> omega
  refine ReadsBack.bind (ReadsBack.int hi) ?_
  exact ReadsBack.map (fun ts => ({ t.toRec.stored with types := ts } : TokenRec))
    (by simpa using readsBack_typs t.toRec.types)

/-! ## Shapes over all histories -/

theorem Shape.default : Shape {} := ⟨rfl, ⟨by decide, rfl⟩, ⟨by decide, rfl⟩, rfl⟩

theorem rd_bind {α β : Type} {r : Rd α} {f : α → Rd β} {b : Bytes} {v : β} {rest : Bytes}
    (h : (r >>= f) b = some (v, rest)) : ∃ a b', r b = some (a, b') ∧ f a b' = some (v, rest) := by
  have h : Rd.bind r f b = some (v, rest) := h
  unfold Rd.bind at h
  split at h
  · cases h
  · exact ⟨_, _, by assumption, h⟩

theorem rd_fixed {n : Nat} {b v rest : Bytes} (h : Rd.fixed n b = some (v, rest)) : v.length = n := by
  unfold Rd.fixed at h
  split at h
  · cases h; simp; omega
  · cases h

theorem rd_array {n : Nat} {b v rest : Bytes} (h : Rd.array n b = some (v, rest)) : v.length ≤ n := by
  obtain ⟨len, b', _, h⟩ := rd_bind h
  split at h
  · cases h
  · have := rd_fixed h; omega

theorem rd_account {b : Bytes} {a : Account} {rest : Bytes} (h : rdAccount b = some (a, rest)) : a.Shape := by
  obtain ⟨pin, _, h1, h⟩ := rd_bind h
  obtain ⟨seed, _, h2, h⟩ := rd_bind h
  obtain ⟨_, _, _, h⟩ := rd_bind h
  obtain ⟨_, _, _, h⟩ := rd_bind h
  obtain ⟨_, _, _, h⟩ := rd_bind h
  cases h
  exact ⟨rd_array h1, rd_fixed h2⟩

theorem rd_token {b : Bytes} {r : TokenRec} {rest : Bytes} (h : rdToken b = some (r, rest)) :
    r.label.length = 32 ∧ r.so.Shape ∧ r.user.Shape ∧ r.seed.length = 16 := by
  obtain ⟨_, _, h1, h⟩ := rd_bind h
  obtain ⟨_, _, h2, h⟩ := rd_bind h
  obtain ⟨_, _, h3, h⟩ := rd_bind h
  obtain ⟨_, _, h4, h⟩ := rd_bind h
  obtain ⟨_, _, _, h⟩ := rd_bind h
  obtain ⟨_, _, _, h⟩ := rd_bind h
  cases h
  exact ⟨rd_fixed h1, rd_account h2, rd_account h3, rd_fixed h4⟩

theorem shape_load (x : StoreExt) (d : Disk) (u : Nat) : Shape (loadToken x d u) := by
  unfold loadToken
  split
  · exact .default
  split
  · exact ⟨rfl, ⟨by decide, rfl⟩, ⟨by decide, rfl⟩, rfl⟩
  rename_i hr
  have := rd_token hr
  split
  · exact ⟨rfl, ⟨by decide, rfl⟩, ⟨by decide, rfl⟩, rfl⟩
  · exact ⟨this.1, this.2.1, this.2.2.1, this.2.2.2⟩

theorem Shape.same {t t' : Token} (h : Shape t) (hs : SameAcct t t') : Shape t' := by
  obtain ⟨h1, h2, _, h4, h5⟩ := hs
  exact ⟨by rw [h5]; exact h.label, by rw [h1]; exact h.so, by rw [h2]; exact h.user, by rw [h4]; exact h.seed⟩

theorem Account.Shape.samePin {a b : Account} (h : a.Shape) (hs : SamePin a b) : b.Shape :=
  ⟨by rw [hs.1]; exact h.pin, by rw [hs.2]; exact h.seed⟩

theorem Account.Shape.withPin (hh : HashLen e) (hr : RandLen e) (a : Account) (p : Bytes) (k : Nat) :
    (a.withPin e p (e.store.rand k 16)).Shape := ⟨by rw [Account.withPin, hh]; decide, hr k 16⟩

theorem labelOf_length (b : Bytes) : (labelOf b).length = 32 := by
  simp [labelOf]

theorem shape_callBody (hh : HashLen e) (hr : RandLen e) {l : Lib} (h : Shape l.token) (c : Call) :
    Shape (callBody e l c).1.token := by
  have huser : ∀ p, Shape (setUserPin e l p).1.token := by
    intro p
    obtain ⟨h1, h2, _, _, h5, h6⟩ := setUserPin_eq e l p
    exact ⟨by rw [h6]; exact h.label, by rw [h2]; exact h.so, by rw [h1]; exact .withPin hh hr .., by rw [h5]; exact hr _ _⟩
  have hso : ∀ p, Shape (setSoPin e l p).1.token := by
    intro p
    obtain ⟨h1, h2, _, _, h5, h6⟩ := setSoPin_eq e l p
    exact ⟨by rw [h6]; exact h.label, by rw [h1]; exact .withPin hh hr .., by rw [h2]; exact h.user, by rw [h5]; exact h.seed⟩
  by_cases hc : c.onAccounts = false
  · exact h.same (sameAcct_callBody e l c hc)
  cases c with
  | cInit =>
    simp only [callBody, cInitialize]
    split
    · exact shape_load ..
    · exact h
  | cFinal =>
    simp only [callBody, cFinalize]
    split
    · exact .default
    · exact h
  | slot id sc =>
    simp only [callBody]
    split; · exact h
    split; · exact h
    cases sc with
    | initToken p lab =>
      simp only [slotCall]
      rcases initToken_spec e l p lab with h' | ⟨_, _, _, _, _, _, _, h'⟩
      · rw [h'.1]; exact h
      · rw [h']; exact ⟨labelOf_length _, .withPin hh hr .., ⟨Nat.zero_le _, rfl⟩, rfl⟩
    | _ => exact absurd rfl hc
  | sess k sc =>
    simp only [callBody]
    split; · exact h
    split; · exact h
    rename_i t _
    cases sc
    case login u pin now =>
      simp only [sessCall, login]
      repeat' split
      · exact h
      · exact h
      · obtain ⟨h1, h2, _, h4, h5, _⟩ := soLogin_acct e l ‹_› now
        exact ⟨by rw [h5]; exact h.label, h.so.samePin h1, by rw [h2]; exact h.user, by rw [h4]; exact h.seed⟩
      · obtain ⟨h1, h2, _, h4, h5⟩ := userLogin_acct e l ‹_› now
        exact ⟨by rw [h5]; exact h.label, by rw [h2]; exact h.so, h.user.samePin h1, by rw [h4]; exact h.seed⟩
      · exact h
      · exact h
    case initPin p =>
      simp only [sessCall]
      rcases initPin_spec e l t p with h' | ⟨_, _, _, _, h'⟩
      · rw [h'.1]; exact h
      · rw [h']; exact huser _
    case setPin o n =>
      simp only [sessCall]
      rcases setPin_spec e l t o n with h' | ⟨_, _, _, _, _, _, ⟨_, _, h'⟩ | ⟨_, _, h'⟩⟩
      · rw [h'.1]; exact h
      · rw [h']; exact hso _
      · rw [h']; exact huser _
    all_goals exact absurd rfl hc

/-! ## The number of objects in the token's file -/

theorem puts_append (d : Disk) (a b : List Write) : d.puts (a ++ b) = (d.puts a).puts b := List.foldl_append

theorem puts_other {d : Disk} {ws : List Write} {f : FName} (h : ∀ w ∈ ws, w.1 ≠ f) : d.puts ws f = d f := by
  induction ws generalizing d with
  | nil => rfl
  | cons w ws ih =>
    show (d.put w).puts ws f = d f
    rw [ih (fun v hv => h v (List.mem_cons_of_mem _ hv))]
    exact if_neg (fun hx => h w List.mem_cons_self hx.symm)

theorem keyFile_ne {o : Obj} {f : StoreType} (h : keyFile o = some f) : f ≠ .token ∧ f ≠ .object := by
  unfold keyFile at h
  repeat' split at h
  all_goals first
    | (cases h; exact ⟨by decide, by decide⟩)
    | cases h

/-- Storing an object writes its object file, then perhaps its key file. -/
theorem storeObj_wr (x : StoreExt) (k : Bytes) (r : Nat) (o : Obj) (i : Nat) :
    ∃ ws, (storeObj x k r o i).wr = ((.object, i), wrObject o) :: ws ∧ ∀ w ∈ ws, w.1.1 ≠ .token ∧ w.1.1 ≠ .object := by
  unfold storeObj
  dsimp only
  split
  · exact ⟨[], rfl, by simp⟩
  · split
    · exact ⟨[], rfl, by simp⟩
    · exact ⟨_, rfl, by simp⟩
  · rename_i hf
    have := keyFile_ne hf
    split
    · split
      · exact ⟨_, rfl, by simpa using this⟩
      · exact ⟨_, rfl, by simpa using this⟩
    · exact ⟨_, rfl, by simpa using this⟩

theorem storeObjs_wr (x : StoreExt) (k : Bytes) (r : Nat) (os : List Obj) :
    ∀ w ∈ (storeObjs x k r os).1, w.1.1 ≠ .token ∧ (w.1.1 = .object → w.1.2 < os.length) := by
  induction os generalizing r with
  | nil => intro w hw; cases hw
  | cons o os ih =>
    have ho : ∀ w ∈ (storeObj x k r o os.length).wr, w.1.1 ≠ .token ∧ (w.1.1 = .object → w.1.2 < (o :: os).length) := by
      obtain ⟨ws, h1, h2⟩ := storeObj_wr x k r o os.length
      rw [h1]
      intro w hw
      rcases List.mem_cons.mp hw with rfl | hw
      · exact ⟨by simp, by simp⟩
      · exact ⟨(h2 w hw).1, fun h => absurd h (h2 w hw).2⟩
    intro w hw
    simp only [storeObjs] at hw
    split at hw
    · rcases List.mem_append.mp hw with hw | hw
      · exact ho w hw
      · obtain ⟨h1, h2⟩ := ih _ w hw
        exact ⟨h1, fun h => by have := h2 h; simp only [List.length_cons]; omega⟩
    · exact ho w hw

/-- If the token's file can be read, it announces `n` objects. -/
def CountIs (d : Disk) (n : Nat) : Prop :=
  ∀ b r rest, d (.token, 0) = some b → rdToken b = some (r, rest) → r.types.length = n

/-- The token's file after storing. -/
theorem store_token_file (e : Env) (l : Lib) :
    (Lib.store e l).1.disk (.token, 0) = some (wrToken l.token.toRec) := by
  show (l.disk.puts (((.token, 0), wrToken l.token.toRec) :: (storeObjs e.store l.token.key l.rng l.token.objs).1)) _ = _
  have : ∀ (d : Disk) (w : Write) (ws : List Write), d.puts (w :: ws) = (d.put w).puts ws := fun _ _ _ => rfl
  rw [this, puts_other]
  · exact if_pos rfl
  · intro w hw h
    have := (storeObjs_wr _ _ _ _ w hw).1
    rw [h] at this
    exact this rfl

theorem count_store {l : Lib} (hs : Shape l.token) (hl : l.token.objs.length ≤ 64) :
    CountIs (Lib.store e l).1.disk l.token.objs.length := by
  intro b r rest hb hr
  rw [store_token_file] at hb
  cases hb
  have := (readsBack_tok l.token hs (by omega)).1 []
  rw [List.append_nil, hr] at this
  cases this
  simp [TokenRec.stored, Token.toRec]

/-! ## Loading -/

theorem rd_object {o₀ o : Obj} {b rest : Bytes} (h : rdObject o₀ b = some (o, rest)) :
    o.uid = o₀.uid ∧ o.iv.length = 12 := by
  unfold rdObject at h
  obtain ⟨_, _, h1, h⟩ := rd_bind h
  obtain ⟨_, _, _, h⟩ := rd_bind h
  obtain ⟨_, _, _, h⟩ := rd_bind h
  obtain ⟨_, _, _, h⟩ := rd_bind h
  obtain ⟨_, _, _, h⟩ := rd_bind h
  obtain ⟨_, _, _, h⟩ := rd_bind h
  obtain ⟨_, _, _, h⟩ := rd_bind h
  obtain ⟨_, _, _, h⟩ := rd_bind h
  obtain ⟨_, _, _, h⟩ := rd_bind h
  obtain ⟨_, _, _, h⟩ := rd_bind h
  obtain ⟨_, _, _, h⟩ := rd_bind h
  obtain ⟨_, _, _, h⟩ := rd_bind h
  cases h
  exact ⟨rfl, rd_fixed h1⟩

theorem readFile_some {α : Type} {d : Disk} {f : FName} {r : Rd α} {v : α} (h : readFile d f r = some v) :
    ∃ b rest, d f = some b ∧ r b = some (v, rest) := by
  unfold readFile at h
  obtain ⟨b, hb, h⟩ := Option.bind_eq_some_iff.mp h
  obtain ⟨x, hx, rfl⟩ := Option.map_eq_some_iff.mp h
  exact ⟨b, x.2, hb, hx⟩

/-- What loading an object takes from its object file. -/
theorem loadObj_file {x : StoreExt} {d : Disk} {o₀ o : Obj} {i : Nat} (h : loadObj x d o₀ i = some o) :
    ∃ o1, readFile d (.object, i) (rdObject o₀) = some o1 ∧ o.key = o1.key ∧ o.iv = o1.iv := by
  unfold loadObj at h
  obtain ⟨o1, h1, h⟩ := Option.bind_eq_some_iff.mp h
  refine ⟨o1, h1, ?_⟩
  split at h
  · cases h
  · split at h
    · obtain ⟨_, _, h⟩ := Option.bind_eq_some_iff.mp h
      obtain ⟨_, _, rfl⟩ := Option.map_eq_some_iff.mp h
      exact ⟨rfl, rfl⟩
    · obtain ⟨_, _, rfl⟩ := Option.map_eq_some_iff.mp h
      exact ⟨rfl, rfl⟩

theorem loadObjs_spec {x : StoreExt} {d : Disk} {u : Nat} {ts : List Nat} {os : List Obj}
    (h : loadObjs x d u ts = some os) :
    os.length = ts.length ∧ (∀ o ∈ os, u ≤ o.uid ∧ o.uid < u + ts.length) ∧ (os.map (·.uid)).Nodup ∧ Ivs os := by
  induction ts generalizing u os with
  | nil =>
    simp only [loadObjs] at h
    cases h
    exact ⟨rfl, by simp, List.nodup_nil, by simp [Ivs]⟩
  | cons t ts ih =>
    simp only [loadObjs] at h
    obtain ⟨o, h1, h⟩ := Option.bind_eq_some_iff.mp h
    obtain ⟨os', h2, rfl⟩ := Option.map_eq_some_iff.mp h
    obtain ⟨o1, hf, hk, hi⟩ := loadObj_file h1
    obtain ⟨b, rest, _, hr⟩ := readFile_some hf
    have hu := rd_object hr
    have hou : o.uid = u := (congrArg (·.2.1) hk).trans hu.1
    obtain ⟨i1, i2, i3, i4⟩ := ih h2
    refine ⟨by simp [i1], ?_, ?_, ?_⟩
    · intro p hp
      rcases List.mem_cons.mp hp with rfl | hp
      · simp only [List.length_cons]; omega
      · have := i2 p hp; simp only [List.length_cons]; omega
    · rw [List.map_cons, List.nodup_cons]
      refine ⟨fun hm => ?_, i3⟩
      obtain ⟨p, hp, he⟩ := List.mem_map.mp hm
      have := i2 p hp; omega
    · intro p hp
      rcases List.mem_cons.mp hp with rfl | hp
      · rw [hi]; exact hu.2
      · exact i4 p hp

theorem load_spec (x : StoreExt) (d : Disk) (u n : Nat) (hc : CountIs d n) :
    let os := (loadToken x d u).objs
    os.length ≤ n ∧ (∀ o ∈ os, u ≤ o.uid ∧ o.uid < u + os.length) ∧ (os.map (·.uid)).Nodup ∧ Ivs os := by
  have h0 : ∀ os : List Obj, os = [] → os.length ≤ n ∧ (∀ o ∈ os, u ≤ o.uid ∧ o.uid < u + os.length) ∧
      (os.map (·.uid)).Nodup ∧ Ivs os := by
    rintro os rfl
    exact ⟨Nat.zero_le _, by simp, List.nodup_nil, by simp [Ivs]⟩
  dsimp only
  unfold loadToken
  split
  · exact h0 _ rfl
  rename_i hb
  split
  · exact h0 _ rfl
  rename_i hr
  split
  · exact h0 _ rfl
  rename_i hos
  obtain ⟨h1, h2, h3, h4⟩ := loadObjs_spec hos
  have := hc _ _ _ hb hr
  exact ⟨Nat.le_of_eq (h1.trans this), by rw [← h1] at h2; exact h2, h3, h4⟩

/-! ## The invariant for caps and identities -/

/-- Caps and identities in every state. -/
structure CapInv (l : Lib) : Prop where
  pop : l.PopA
  shape : Shape l.token
  off : l.count ≤ 0 → l.token.objs = [] ∧ ∃ n, n ≤ 64 ∧ CountIs l.disk n

theorem PopA.empty (n : Nat) (ss : List SKey) (h : ∀ s ∈ ss, s.2.2 = []) : PopA n [] ss := by
  refine ⟨by simp, ?_, by simp, ?_, List.nodup_nil, ?_, ?_, ?_⟩
  · intro s hs; rw [h s hs]; simp
  · intro s hs k hk; rw [h s hs] at hk; cases hk
  · intro s hs; rw [h s hs]; exact List.nodup_nil
  · intro s hs k hk; rw [h s hs] at hk; cases hk
  · intro s hs t ht _ k hk; rw [h s hs] at hk; cases hk

theorem Start.capInv {l : Lib} (h : Start l) (hd : NoToken l) : CapInv l := by
  refine ⟨?_, by rw [h.token]; exact .default, fun _ => ⟨by rw [h.token], 0, by omega, ?_⟩⟩
  · unfold Lib.PopA
    rw [h.token, h.sessions]
    exact PopA.empty _ _ (by simp)
  · intro b r rest hb; rw [hd] at hb; cases hb

theorem Eff.count {n : Nat} {l l' : Lib} (h : Eff e ok n l l') : l'.count = l.count := by
  induction h with
  | quiet h => exact h.count
  | trans _ _ h1 h2 => exact h2.trans h1
  | _ => rfl

theorem capInv_callBody (hh : HashLen e) (hr : RandLen e) {l : Lib} (hi : SInv l) (h : CapInv l) (c : Call) :
    CapInv (callBody e l c).1 := by
  have hs := shape_callBody hh hr h.shape c
  have hcase := stepCase_callBody (e := e) (ok := fun _ => True) hi h.pop.uidOk c (fun _ _ _ _ => trivial)
  by_cases hc : 0 < l.count
  · generalize hl' : (callBody e l c).1 = l' at hs hcase
    cases hcase with
    | eff he =>
      obtain ⟨n, _, he⟩ := he
      refine ⟨(he.popA hi.nodup h.pop).1, hs, fun hx => ?_⟩
      rw [he.count] at hx; omega
    | shrink hx =>
      refine ⟨?_, hs, fun hy => by rw [hx.count] at hy; omega⟩
      unfold Lib.PopA
      rw [hx.tok, hx.uid]
      refine PopA.mono h.pop (List.Sublist.refl _) (sub_keys fun s' hs' => ?_)
      rcases hx.sess s' hs' with h1 | ⟨s, h1, h2, h3⟩
      · exact .inl h1
      · exact .inr ⟨s, h1, h2, by rw [h3]; exact List.Sublist.refl _⟩
    | reset t r ht =>
      refine ⟨?_, hs, fun hy => ?_⟩
      · unfold Lib.PopA
        rw [store_key]
        simp only [ht, List.map_nil]
        exact PopA.mono h.pop (List.nil_sublist _) (self_sub _)
      · have : l.count ≤ 0 := hy
        omega
    | count n hn =>
      refine ⟨h.pop, hs, fun hy => ?_⟩
      have : n ≤ 0 := hy
      omega
    | load hx => omega
    | final hx =>
      have h0 : l.count - 1 = 0 := by omega
      have heq : (cFinalize e l).1 = { (Lib.store e { l with count := l.count - 1 }).1 with sessions := [], token := {} } := by
        simp only [cFinalize, if_pos h0]
      rw [heq] at hs ⊢
      refine ⟨PopA.empty _ _ (by simp), hs, fun _ => ⟨rfl, l.token.objs.length, ?_, ?_⟩⟩
      · have := h.pop.tokLen; simpa using this
      · exact count_store (l := { l with count := l.count - 1 }) h.shape (by have := h.pop.tokLen; simpa using this)
  · have hc : l.count ≤ 0 := by omega
    obtain ⟨h1, n, h2, h3⟩ := h.off hc
    cases c with
    | cInit =>
      by_cases h0 : l.count = 0
      · simp only [callBody, cInitialize, if_pos h0] at hs ⊢
        have hl := load_spec e.store l.disk l.uid n h3
        refine ⟨?_, hs, fun hy => ?_⟩
        · have hnil : ∀ s ∈ (addSession (addSession [])).map Session.key, s.2.2 = [] := by
            simp [addSession, Session.key]
          refine ⟨by have := hl.1; simp; omega, fun s hs => by rw [hnil s hs]; simp, ?_, ?_, ?_, ?_, ?_, ?_⟩
          · intro k hk
            obtain ⟨o, ho, rfl⟩ := List.mem_map.mp hk
            exact (hl.2.1 o ho).2
          · intro s hs k hk; rw [hnil s hs] at hk; cases hk
          · rw [List.map_map]; exact hl.2.2.1
          · intro s hs; rw [hnil s hs]; exact List.nodup_nil
          · intro s hs k hk; rw [hnil s hs] at hk; cases hk
          · intro s hs t ht _ k hk; rw [hnil s hs] at hk; cases hk
        · have : l.count + 1 ≤ 0 := hy
          omega
      · simp only [callBody, cInitialize, if_neg h0] at hs ⊢
        exact ⟨h.pop, hs, fun _ => ⟨h1, n, h2, h3⟩⟩
    | cFinal =>
      have h0 : ¬ l.count - 1 = 0 := by omega
      simp only [callBody, cFinalize, if_neg h0] at hs ⊢
      exact ⟨h.pop, hs, fun _ => ⟨h1, n, h2, h3⟩⟩
    | slot id sc => simp only [callBody, if_pos hc]; exact h
    | sess k sc => simp only [callBody, if_pos hc]; exact h

theorem CapInv.bad {l : Lib} (h : CapInv l) (b : Bool) : CapInv { l with bad := b } := ⟨h.pop, h.shape, h.off⟩

theorem CapInv.step (hh : HashLen e) (hr : RandLen e) {l : Lib} (hi : SInv l) (h : CapInv l) (c : Call) :
    CapInv (step e l c).1 := by
  unfold Verif.step
  split
  · exact h
  · dsimp only
    split
    · exact (capInv_callBody hh hr hi h c).bad true
    · exact capInv_callBody hh hr hi h c

theorem CapInv.run (hh : HashLen e) (hr : RandLen e) {l : Lib} (hi : SInv l) (h : CapInv l) (cs : List Call) :
    CapInv (run e l cs) := by
  induction cs generalizing l with
  | nil => exact h
  | cons c cs ih => exact ih (hi.step e c) (h.step hh hr hi c)

end Verif
