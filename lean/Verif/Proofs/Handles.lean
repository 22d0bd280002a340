import Verif.Proofs.Disk

/-!
# The handles of objects over all histories
-/

namespace Verif

variable {e : Env} {ok : Nat → Prop}

/-- Handle and `CKA_TOKEN` bit. -/
abbrev HB := Nat × Bool

def OKey.hb (k : OKey) : HB := (k.1, k.2.2)

def Obj.hb (o : Obj) : HB := (o.handle, o.onToken)

theorem map_hb (os : List Obj) : (os.map Obj.key).map OKey.hb = os.map Obj.hb := by
  simp only [List.map_map]; rfl

/-- If object file `i` can be read, it carries this handle and bit. -/
def FileOk (d : Disk) (i : Nat) (k : HB) : Prop :=
  ∀ o₀ o, readFile d (.object, i) (rdObject o₀) = some o → o.hb = k

/-- Object file `i` cannot be read. -/
def Blocked (d : Disk) (i : Nat) : Prop := ∀ o₀, readFile d (.object, i) (rdObject o₀) = none

/-- The object files of a list, the last object having id 0. -/
def AllOk (d : Disk) : List HB → Prop
  | [] => True
  | k :: ks => FileOk d ks.length k ∧ AllOk d ks

/-- The object files agree with the list from its end up to one that cannot be read. -/
def Guarded (d : Disk) (ks : List HB) : Prop :=
  ∃ a b, ks = a ++ b ∧ AllOk d b ∧ (a ≠ [] → Blocked d b.length)

theorem allOk_congr {d d' : Disk} {ks : List HB} (h : ∀ i, i < ks.length → d' (.object, i) = d (.object, i)) :
    AllOk d ks → AllOk d' ks := by
  induction ks with
  | nil => exact id
  | cons k ks ih =>
    rintro ⟨h1, h2⟩
    refine ⟨fun o₀ o ho => h1 o₀ o ?_, ih (fun i hi => h i (by simp only [List.length_cons]; omega)) h2⟩
    unfold readFile at ho ⊢
    rwa [h _ (by simp)] at ho

theorem Guarded.congr {d d' : Disk} {ks : List HB} (h : ∀ i, i < ks.length → d' (.object, i) = d (.object, i))
    (hg : Guarded d ks) : Guarded d' ks := by
  obtain ⟨a, b, rfl, h1, h2⟩ := hg
  refine ⟨a, b, rfl, allOk_congr (fun i hi => h i (by simp only [List.length_append]; omega)) h1, fun ha o₀ => ?_⟩
  have hlt : b.length < (a ++ b).length := by
    have := List.length_pos_iff.mpr ha
    simp only [List.length_append]; omega
  have := h2 ha o₀
  unfold readFile at this ⊢
  rw [h _ hlt]; exact this

theorem Guarded.tail {d : Disk} {k : HB} {ks : List HB} (h : Guarded d (k :: ks)) : Guarded d ks := by
  obtain ⟨a, b, h0, h1, h2⟩ := h
  cases a with
  | nil =>
    rw [List.nil_append] at h0
    subst h0
    exact ⟨[], ks, rfl, h1.2, fun h => absurd rfl h⟩
  | cons x a =>
    obtain ⟨rfl, rfl⟩ := List.cons.inj h0
    exact ⟨a, b, rfl, h1, fun _ => h2 (by simp)⟩

theorem Guarded.cons {d : Disk} {k : HB} {ks : List HB} (h : Guarded d ks) (hk : FileOk d ks.length k) :
    Guarded d (k :: ks) := by
  obtain ⟨a, b, rfl, h1, h2⟩ := h
  cases a with
  | nil => exact ⟨[], k :: b, rfl, ⟨hk, h1⟩, fun h => absurd rfl h⟩
  | cons x a => exact ⟨k :: x :: a, b, rfl, h1, fun _ => h2 (by simp)⟩

theorem Guarded.drop {d : Disk} (a : List HB) {ks : List HB} (h : Guarded d (a ++ ks)) : Guarded d ks := by
  induction a with
  | nil => exact h
  | cons x a ih => exact ih h.tail

/-- Removing an element whose file cannot be read any more. -/
theorem Guarded.remove {d : Disk} (a : List HB) {ks : List HB} (h : Guarded d ks) (hb : Blocked d ks.length) :
    Guarded d (a ++ ks) := by
  obtain ⟨p, q, rfl, h1, h2⟩ := h
  refine ⟨a ++ p, q, by simp, h1, fun _ => ?_⟩
  cases p with
  | nil => simpa using hb
  | cons x p => exact h2 (by simp)

/-- Handle and bit are read back. -/
theorem rd_wrObject {o₀ o o' : Obj} {rest : Bytes} (hi : o.iv.length = 12) (hh : o.handle < 2 ^ 64)
    (h : rdObject o₀ (wrObject o) = some (o', rest)) : o'.hb = o.hb := by
  simp only [wrObject, List.append_assoc] at h
  unfold rdObject at h
  obtain ⟨_, _, h1, h⟩ := rd_bind h
  rw [(ReadsBack.fixed hi).1] at h1
  cases h1
  obtain ⟨_, _, h2, h⟩ := rd_bind h
  rw [(ReadsBack.ulong hh).1] at h2
  cases h2
  obtain ⟨_, _, h3, h⟩ := rd_bind h
  rw [(readsBack_ulong _).1] at h3
  cases h3
  obtain ⟨_, _, h4, h⟩ := rd_bind h
  rw [(readsBack_ulong _).1] at h4
  cases h4
  obtain ⟨_, _, h5, h⟩ := rd_bind h
  rw [wrBool, (ReadsBack.byte _).1] at h5
  cases h5
  obtain ⟨_, _, _, h⟩ := rd_bind h
  obtain ⟨_, _, _, h⟩ := rd_bind h
  obtain ⟨_, _, _, h⟩ := rd_bind h
  obtain ⟨_, _, _, h⟩ := rd_bind h
  obtain ⟨_, _, _, h⟩ := rd_bind h
  obtain ⟨_, _, _, h⟩ := rd_bind h
  obtain ⟨_, _, _, h⟩ := rd_bind h
  cases h
  simp only [Obj.hb, byte_ne_zero]

theorem fileOk_of_write {d : Disk} {i : Nat} {o : Obj} (hi : o.iv.length = 12) (hh : o.handle < 2 ^ 64)
    (hd : d (.object, i) = some (wrObject o)) : FileOk d i o.hb := by
  intro o₀ o' ho
  obtain ⟨b, rest, h1, h2⟩ := readFile_some ho
  rw [hd] at h1
  cases h1
  exact rd_wrObject hi hh h2

theorem puts_cons (d : Disk) (w : Write) (ws : List Write) : d.puts (w :: ws) = (d.put w).puts ws := rfl

/-- Storing the objects. -/
theorem storeObjs_guarded (x : StoreExt) (k : Bytes) (r : Nat) (d : Disk) (os : List Obj) (hi : Ivs os)
    (hh : ∀ o ∈ os, o.handle < 2 ^ 64) (hg : Guarded d (os.map Obj.hb).tail) :
    Guarded (d.puts (storeObjs x k r os).1) (os.map Obj.hb) := by
  induction os generalizing r d with
  | nil => exact ⟨[], [], rfl, trivial, fun h => absurd rfl h⟩
  | cons o os ih =>
    obtain ⟨ws, h1, h2⟩ := storeObj_wr x k r o os.length
    have hd1 : ∀ i, d.puts (storeObj x k r o os.length).wr (.object, i) =
        if i = os.length then some (wrObject o) else d (.object, i) := by
      intro i
      rw [h1, puts_cons, puts_other]
      · unfold Disk.put
        by_cases hx : i = os.length
        · subst hx; simp
        · simp [hx]
      · intro w hw hx
        exact (h2 w hw).2 (by rw [hx])
    have hg1 : Guarded (d.puts (storeObj x k r o os.length).wr) (os.map Obj.hb) := by
      refine Guarded.congr (fun i hlt => ?_) hg
      rw [hd1, if_neg]
      simp only [List.map_cons, List.tail_cons, List.length_map] at hlt
      omega
    have hk : ∀ d' : Disk, d' (.object, os.length) = some (wrObject o) → FileOk d' (os.map Obj.hb).length o.hb := by
      intro d' h
      rw [List.length_map]
      exact fileOk_of_write (hi _ List.mem_cons_self) (hh _ List.mem_cons_self) h
    simp only [storeObjs]
    split
    · rw [puts_append]
      have := ih (storeObj x k r o os.length).rng (d.puts (storeObj x k r o os.length).wr)
        (fun p hp => hi p (List.mem_cons_of_mem _ hp)) (fun p hp => hh p (List.mem_cons_of_mem _ hp)) (by
          cases hos : os.map Obj.hb with
          | nil => exact ⟨[], [], rfl, trivial, fun h => absurd rfl h⟩
          | cons y ys => rw [hos] at hg1; exact hg1.tail)
      refine Guarded.cons this (hk _ ?_)
      rw [puts_other]
      · rw [hd1, if_pos rfl]
      · intro w hw hx
        have := (storeObjs_wr x k _ os w hw).2 (by rw [hx])
        rw [hx] at this
        exact Nat.lt_irrefl _ this
    · exact Guarded.cons hg1 (hk _ (by rw [hd1, if_pos rfl]))

theorem store_hb (e : Env) (l : Lib) : (Lib.store e l).1.token.objs.map Obj.hb = l.token.objs.map Obj.hb := by
  rw [← map_hb, store_key, map_hb]

/-- Storing the token. -/
theorem store_guarded (e : Env) (l : Lib) (hi : Ivs l.token.objs) (hh : ∀ o ∈ l.token.objs, o.handle < 2 ^ 64)
    (hg : Guarded l.disk (l.token.objs.map Obj.hb).tail) :
    Guarded (Lib.store e l).1.disk (l.token.objs.map Obj.hb) := by
  show Guarded (l.disk.puts (((.token, 0), wrToken l.token.toRec) ::
    (storeObjs e.store l.token.key l.rng l.token.objs).1)) _
  rw [puts_cons]
  refine storeObjs_guarded _ _ _ _ _ hi hh (Guarded.congr (fun i _ => ?_) hg)
  exact if_neg (by simp)

theorem Guarded.tail' {d : Disk} {ks : List HB} (h : Guarded d ks) : Guarded d ks.tail := by
  cases ks with
  | nil => exact h
  | cons k ks => exact h.tail

/-- Loading gives the handles that were stored. -/
theorem loadObjs_hb {x : StoreExt} {d : Disk} {u : Nat} {ts : List Nat} {os : List Obj} {ks : List HB}
    (h : loadObjs x d u ts = some os) (hl : ts.length = ks.length) (hg : Guarded d ks) :
    os.map Obj.hb = ks ∧ ∀ i, i < ts.length → ¬ Blocked d i := by
  induction ts generalizing u os ks with
  | nil =>
    simp only [loadObjs] at h
    cases h
    have : ks = [] := List.length_eq_zero_iff.mp hl.symm
    subst this
    exact ⟨rfl, fun i hi => absurd hi (by simp)⟩
  | cons t ts ih =>
    cases ks with
    | nil => simp at hl
    | cons k ks =>
      simp only [List.length_cons, Nat.add_right_cancel_iff] at hl
      simp only [loadObjs] at h
      obtain ⟨o, h1, h⟩ := Option.bind_eq_some_iff.mp h
      obtain ⟨os', h2, rfl⟩ := Option.map_eq_some_iff.mp h
      obtain ⟨o1, hf, hk, _⟩ := loadObj_file h1
      obtain ⟨i1, i2⟩ := ih h2 hl hg.tail
      have hnb : ∀ i, i < (t :: ts).length → ¬ Blocked d i := by
        intro i hi hb
        by_cases hx : i = ts.length
        · subst hx
          have := hb (newObj u t)
          rw [hf] at this; cases this
        · exact i2 i (by simp only [List.length_cons] at hi; omega) hb
      refine ⟨?_, hnb⟩
      obtain ⟨a, b, h0, h3, h4⟩ := hg
      cases a with
      | nil =>
        rw [List.nil_append] at h0
        subst h0
        have := h3.1 (newObj u t) o1 (by rw [← hl]; exact hf)
        rw [List.map_cons, i1]
        congr 1
        rw [← this]
        have e1 : o.handle = o1.handle := congrArg (·.1) hk
        have e2 : o.onToken = o1.onToken := congrArg (·.2.2) hk
        simp only [Obj.hb, e1, e2]
      | cons y a =>
        refine absurd (h4 (by simp)) (hnb _ ?_)
        have := congrArg List.length h0
        simp only [List.length_cons, List.length_append] at this
        simp only [List.length_cons]; omega

theorem load_hb (x : StoreExt) (d : Disk) (u : Nat) (ks : List HB) (hc : CountIs d ks.length) (hg : Guarded d ks) :
    (loadToken x d u).objs.map Obj.hb = ks ∨ (loadToken x d u).objs = [] := by
  unfold loadToken
  split
  · exact .inr rfl
  rename_i hb
  split
  · exact .inr rfl
  rename_i hr
  split
  · exact .inr rfl
  rename_i hos
  exact .inl (loadObjs_hb hos (hc _ _ _ hb hr) hg).1

/-! ## Handles in order -/

/-- Handles strictly decreasing (newest first) in `(b, b + n]`, all with the bit `v`. -/
structure HOk (b n : Nat) (v : Bool) (ks : List HB) : Prop where
  decr : ks.Pairwise fun x y => y.1 < x.1
  range : ∀ k ∈ ks, b < k.1 ∧ k.1 ≤ b + n
  bit : ∀ k ∈ ks, k.2 = v

theorem HOk.nil (b n : Nat) (v : Bool) : HOk b n v [] := ⟨List.Pairwise.nil, by simp, by simp⟩

theorem HOk.sub {b n : Nat} {v : Bool} {ks ks' : List HB} (h : HOk b n v ks) (hs : ks'.Sublist ks) : HOk b n v ks' :=
  ⟨h.decr.sublist hs, fun k hk => h.range k (hs.subset hk), fun k hk => h.bit k (hs.subset hk)⟩

theorem HOk.mono {b n m : Nat} {v : Bool} {ks : List HB} (h : HOk b n v ks) (hn : n ≤ m) : HOk b m v ks :=
  ⟨h.decr, fun k hk => ⟨(h.range k hk).1, by have := (h.range k hk).2; omega⟩, h.bit⟩

/-- The handle after those of a list. -/
def nextOf (b : Nat) : List HB → Nat
  | [] => b + 1
  | q :: _ => q.1 + 1

/-- Adding an object in front. -/
theorem HOk.add {b n : Nat} {v : Bool} {ks : List HB} (h : HOk b n v ks) (k : HB)
    (hk : k.1 = nextOf b ks) (hv : k.2 = v) : HOk b (n + 1) v (k :: ks) := by
  have hmax : ∀ q ∈ ks, q.1 < k.1 := by
    intro q hq
    cases ks with
    | nil => cases hq
    | cons p ps =>
      simp only [nextOf] at hk
      rcases List.mem_cons.mp hq with rfl | hq
      · omega
      · have := (List.pairwise_cons.mp h.decr).1 q hq; omega
  refine ⟨List.pairwise_cons.mpr ⟨hmax, h.decr⟩, ?_, ?_⟩
  · intro q hq
    rcases List.mem_cons.mp hq with rfl | hq
    · cases ks with
      | nil => simp only [nextOf] at hk; omega
      | cons p ps =>
        simp only [nextOf] at hk
        have := h.range p List.mem_cons_self; omega
    · have := h.range q hq; omega
  · intro q hq
    rcases List.mem_cons.mp hq with rfl | hq
    · exact hv
    · exact h.bit q hq

theorem HOk.nodup {b n : Nat} {v : Bool} {ks : List HB} (h : HOk b n v ks) : (ks.map (·.1)).Nodup := by
  have := h.decr
  rw [List.Nodup, List.pairwise_map]
  exact this.imp (fun h => by omega)

/-- The handles while the library is initialised. -/
structure HInv (n : Nat) (l : Lib) : Prop where
  tok : HOk (2 ^ 28) n true (l.token.objs.map Obj.hb)
  sess : ∀ s ∈ l.sessions, HOk 0 n false (s.objs.map Obj.hb)
  ivs : Ivs l.token.objs
  disk : Guarded l.disk (l.token.objs.map Obj.hb)

theorem HInv.handle_lt {n : Nat} {l : Lib} (h : HInv n l) (hn : n < 2 ^ 28) : ∀ o ∈ l.token.objs, o.handle < 2 ^ 64 := by
  intro o ho
  have := (h.tok.range o.hb (List.mem_map.mpr ⟨o, ho, rfl⟩)).2
  simp only [Obj.hb] at this
  omega

theorem HInv.quiet {n : Nat} {l l' : Lib} (h : HInv n l) (hq : Quiet l l') : HInv n l' := by
  have ht : l'.token.objs.map Obj.hb = l.token.objs.map Obj.hb := by rw [← map_hb, hq.tok, map_hb]
  refine ⟨by rw [ht]; exact h.tok, ?_, hq.ivs h.ivs, by rw [ht, hq.disk]; exact h.disk⟩
  intro s hs
  have : s.key ∈ l'.sessions.map Session.key := List.mem_map.mpr ⟨s, hs, rfl⟩
  rw [hq.sess] at this
  obtain ⟨t, ht, he⟩ := List.mem_map.mp this
  have : s.objs.map Obj.hb = t.objs.map Obj.hb := by
    rw [← map_hb, ← map_hb]
    exact congrArg (fun k => k.2.2.map OKey.hb) he.symm
  rw [this]; exact h.sess t ht

theorem HInv.mono {n m : Nat} {l : Lib} (h : HInv n l) (hn : n ≤ m) : HInv m l :=
  ⟨h.tok.mono hn, fun s hs => (h.sess s hs).mono hn, h.ivs, h.disk⟩

theorem HInv.store (hr : RandLen e) {n : Nat} {l : Lib} (ht : HOk (2 ^ 28) n true (l.token.objs.map Obj.hb))
    (hs : ∀ s ∈ l.sessions, HOk 0 n false (s.objs.map Obj.hb)) (hi : Ivs l.token.objs)
    (hg : Guarded l.disk (l.token.objs.map Obj.hb).tail) (hn : n < 2 ^ 28) : HInv n (Lib.store e l).1 := by
  refine ⟨by rw [store_hb]; exact ht, hs, store_ivs hr hi, ?_⟩
  rw [store_hb]
  refine store_guarded e l hi ?_ hg
  intro o ho
  have := (ht.range o.hb (List.mem_map.mpr ⟨o, ho, rfl⟩)).2
  simp only [Obj.hb] at this
  omega

/-- A list and what is left without one element, with the place of that element. -/
theorem split_uid {os : List Obj} {o : Obj} (hn : (os.map (·.uid)).Nodup) (ho : o ∈ os) :
    ∃ a b, os = a ++ o :: b ∧ (os.filter fun p => p.uid != o.uid) = a ++ b ∧
      (os.dropWhile fun p => p.uid != o.uid) = o :: b := by
  induction os with
  | nil => cases ho
  | cons x xs ih =>
    simp only [List.map_cons, List.nodup_cons] at hn
    by_cases hx : x.uid = o.uid
    · have hox : o = x := by
        rcases List.mem_cons.mp ho with h | h
        · exact h
        · exact absurd (List.mem_map.mpr ⟨o, h, hx.symm⟩) hn.1
      subst hox
      refine ⟨[], xs, rfl, ?_, ?_⟩
      · simp only [List.filter_cons, bne_self_eq_false, Bool.false_eq_true, if_false, List.nil_append]
        refine List.filter_eq_self.mpr fun p hp => ?_
        simp only [bne_iff_ne, ne_eq]
        exact fun he => hn.1 (List.mem_map.mpr ⟨p, hp, he⟩)
      · simp [List.dropWhile_cons]
    · have hom : o ∈ xs := by
        rcases List.mem_cons.mp ho with rfl | h
        · exact absurd rfl hx
        · exact h
      obtain ⟨a, b, h1, h2, h3⟩ := ih hn.2 hom
      refine ⟨x :: a, b, by rw [h1]; rfl, ?_, ?_⟩
      · rw [List.filter_cons, if_pos (by simpa using hx), h2]; rfl
      · rw [List.dropWhile_cons, if_pos (by simpa using hx), h3]

theorem unstore_wr (o : Obj) (i : Nat) :
    ∃ ws, unstore o i = ((.object, i), []) :: ws ∧ ∀ w ∈ ws, w.1.1 ≠ .token ∧ w.1.1 ≠ .object := by
  unfold unstore
  split
  · rename_i hf
    exact ⟨_, rfl, by simpa using keyFile_ne hf⟩
  · exact ⟨[], rfl, by simp⟩

theorem blocked_nil {d : Disk} {i : Nat} (h : d (.object, i) = some []) : Blocked d i := by
  intro o₀
  unfold readFile
  rw [h]
  rfl

theorem objHandle_one : objHandle 1 = 2 ^ 28 + 1 := by decide

theorem nextHandle_tok (os : List Obj) :
    nextHandle os 1 = nextOf (2 ^ 28) (os.map Obj.hb) := by
  cases os with
  | nil => exact objHandle_one
  | cons o os => rfl

theorem nextHandle_sess (os : List Obj) :
    nextHandle os 0 = nextOf 0 (os.map Obj.hb) := by
  cases os with
  | nil => decide
  | cons o os => rfl

/-- Handles under the changes calls make, `CKA_TOKEN` being 0 or 1. -/
theorem Eff.hinv (hr : RandLen e) {n k : Nat} {l l' : Lib} (h : Eff e (· ≤ 1) k l l')
    (hnd : (handles l.sessions).Nodup) (hp : l.PopA) (hi : HInv n l) (hn : n + k < 2 ^ 28) : HInv (n + k) l' := by
  induction h generalizing n with
  | quiet hq => exact hi.quiet hq
  | store l => exact HInv.store hr hi.tok hi.sess hi.ivs hi.disk.tail' hn
  | addTok on hon h0 hl hh hu hb hiv =>
    rename_i l o
    have h1 : on = 1 := by omega
    subst h1
    refine HInv.store hr ?_ (fun s hs => (hi.sess s hs).mono (Nat.le_succ _)) ?_ ?_ hn
    · exact hi.tok.add o.hb (by rw [← nextHandle_tok]; exact hh) (by simpa [Obj.hb] using hb)
    · intro p hp
      rcases List.mem_cons.mp hp with rfl | hp
      · exact hiv
      · exact hi.ivs p hp
    · exact hi.disk
  | addSess hs hl hh hu hb =>
    rename_i l s o
    refine ⟨hi.tok.mono (Nat.le_succ _), ?_, hi.ivs, hi.disk⟩
    intro t' ht'
    obtain ⟨t, ht, rfl⟩ := List.mem_map.mp ht'
    by_cases he : t.handle = s.handle
    · have hts : t = s := by
        have h1 : l.sessions.find? (fun x => x.handle == s.handle) = some t := (find_iff hnd).mpr ⟨ht, he⟩
        have h2 : l.sessions.find? (fun x => x.handle == s.handle) = some s := (find_iff hnd).mpr ⟨hs, rfl⟩
        rw [h1] at h2
        exact Option.some.inj h2
      subst hts
      rw [if_pos rfl]
      exact (hi.sess t ht).add o.hb (by rw [← nextHandle_sess]; exact hh) hb
    · rw [if_neg he]
      exact (hi.sess t ht).mono (Nat.le_succ _)
  | delTok ho hb =>
    rename_i l o
    obtain ⟨a, b, h1, h2, h3⟩ := split_uid hp.uidOk.1 ho
    have hsub : (l.token.objs.filter fun p => p.uid != o.uid).Sublist l.token.objs := List.filter_sublist
    refine HInv.store hr (hi.tok.sub (hsub.map _)) hi.sess (fun p hp => hi.ivs p (hsub.subset hp)) ?_ hn
    refine Guarded.tail' ?_
    show Guarded (l.disk.puts (unstore o ((l.token.objs.dropWhile fun p => p.uid != o.uid).length - 1)))
      ((l.token.objs.filter fun p => p.uid != o.uid).map Obj.hb)
    rw [h2, h3, List.map_append]
    simp only [List.length_cons, Nat.add_sub_cancel]
    obtain ⟨ws, hw, hws⟩ := unstore_wr o b.length
    have hd : ∀ i, l.disk.puts (unstore o b.length) (.object, i) = if i = b.length then some [] else l.disk (.object, i) := by
      intro i
      rw [hw, puts_cons, puts_other]
      · unfold Disk.put
        by_cases hx : i = b.length
        · subst hx; simp
        · simp [hx]
      · intro w hwm hx
        exact (hws w hwm).2 (by rw [hx])
    refine Guarded.remove _ (Guarded.congr (d := l.disk) (fun i hlt => ?_) ?_) ?_
    · rw [hd, if_neg]
      rw [List.length_map] at hlt; omega
    · have := hi.disk
      rw [h1, List.map_append, List.map_cons] at this
      exact (this.drop _).tail
    · rw [List.length_map]
      exact blocked_nil (by rw [hd, if_pos rfl])
  | delSess u hs =>
    refine ⟨hi.tok, ?_, hi.ivs, hi.disk⟩
    intro t' ht'
    obtain ⟨t, ht, rfl⟩ := List.mem_map.mp ht'
    split
    · exact (hi.sess t ht).sub (List.filter_sublist.map _)
    · exact hi.sess t ht
  | trans h1 h2 ih1 ih2 =>
    rename_i k1 k2 a b c
    have g1 := ih1 hnd hp hi (by omega)
    obtain ⟨p1, p2⟩ := h1.popA hnd hp
    have := ih2 (p2 ▸ hnd) p1 g1 (by omega)
    rwa [Nat.add_assoc] at this

/-- The handles in every state: while the library is not initialised, those that were
stored. -/
def HandleInv (n : Nat) (l : Lib) : Prop :=
  if 0 < l.count then HInv n l
  else ∃ ks, HOk (2 ^ 28) n true ks ∧ Guarded l.disk ks ∧ CountIs l.disk ks.length

theorem HandleInv.off {n : Nat} {l : Lib} (h : ¬ 0 < l.count)
    (hk : ∃ ks, HOk (2 ^ 28) n true ks ∧ Guarded l.disk ks ∧ CountIs l.disk ks.length) : HandleInv n l := by
  unfold HandleInv; rw [if_neg h]; exact hk

theorem tokOk_of_bool {t : List Entry} (h : ∀ en, findAttr t .token = some en → en.val = [0] ∨ en.val = [1]) :
    TokOk (· ≤ 1) t := by
  intro on hon
  unfold tokenByte at hon
  split at hon
  · cases hon; simp
  · rename_i en hf
    split at hon
    · cases hon
    split at hon
    · cases hon
    cases hon
    rcases h en hf with h1 | h1 <;> rw [h1] <;> decide

theorem handleInv_callBody (hh : HashLen e) (hr : RandLen e) {l : Lib} (hs : SInv l) (hc : CapInv l) {n : Nat}
    (h : HandleInv n l) (hn : n + 2 < 2 ^ 28) (c : Call) (hb : BoolToken [c]) :
    HandleInv (n + 2) (callBody e l c).1 := by
  have hok : ∀ t ∈ c.creates, TokOk (· ≤ 1) t := fun t ht => tokOk_of_bool (hb c List.mem_cons_self t ht)
  have hcase := stepCase_callBody (e := e) (ok := (· ≤ 1)) hs hc.pop.uidOk c hok
  by_cases hpos : 0 < l.count
  · unfold HandleInv at h
    rw [if_pos hpos] at h
    generalize hl' : (callBody e l c).1 = l' at hcase
    cases hcase with
    | eff he =>
      obtain ⟨k, hk, he⟩ := he
      unfold HandleInv
      rw [he.count, if_pos hpos]
      exact (he.hinv hr hs.nodup hc.pop h (by omega)).mono (by omega)
    | shrink hx =>
      unfold HandleInv
      rw [hx.count, if_pos hpos]
      have ht : l'.token.objs.map Obj.hb = l.token.objs.map Obj.hb := by rw [← map_hb, hx.tok, map_hb]
      refine HInv.mono (n := n) ⟨by rw [ht]; exact h.tok, ?_, hx.ivs h.ivs, by rw [ht, hx.disk]; exact h.disk⟩ (by omega)
      intro s' hs'
      rcases hx.sess s' hs' with h1 | ⟨s, h1, _, h3⟩
      · rw [h1]; exact .nil ..
      · rw [h3]; exact h.sess s h1
    | reset t r ht =>
      unfold HandleInv
      rw [if_pos (show 0 < (Lib.store e { l with token := t, rng := r }).1.count from hpos)]
      refine HInv.mono (n := n) (HInv.store hr ?_ h.sess ?_ ?_ (by omega)) (by omega)
      · simp only [ht, List.map_nil]; exact .nil ..
      · simp only [ht]; intro o ho; cases ho
      · simp only [ht, List.map_nil, List.tail_nil]
        exact ⟨[], [], rfl, trivial, fun h => absurd rfl h⟩
    | count m hm =>
      unfold HandleInv
      rw [if_pos (show 0 < m from hm.mpr hpos)]
      exact HInv.mono (n := n) ⟨h.tok, h.sess, h.ivs, h.disk⟩ (by omega)
    | load hx => omega
    | final hx =>
      have h0 : l.count - 1 = 0 := by omega
      have heq : (cFinalize e l).1 = { (Lib.store e { l with count := l.count - 1 }).1 with sessions := [], token := {} } := by
        simp only [cFinalize, if_pos h0]
      rw [heq]
      refine HandleInv.off (show ¬ 0 < l.count - 1 by omega) ?_
      refine ⟨l.token.objs.map Obj.hb, h.tok.mono (by omega), ?_, ?_⟩
      · exact store_guarded e { l with count := l.count - 1 } h.ivs (h.handle_lt (by omega)) h.disk.tail'
      · rw [List.length_map]
        exact count_store (l := { l with count := l.count - 1 }) hc.shape (by have := hc.pop.tokLen; simpa using this)
  · unfold HandleInv at h
    rw [if_neg hpos] at h
    have hle : l.count ≤ 0 := by omega
    obtain ⟨ks, k1, k2, k3⟩ := h
    have hsame : ∀ m : Int, m ≤ 0 → HandleInv (n + 2) { l with count := m } := by
      intro m hm
      unfold HandleInv
      rw [if_neg (show ¬ 0 < m by omega)]
      exact ⟨ks, k1.mono (by omega), k2, k3⟩
    cases c with
    | cInit =>
      by_cases h0 : l.count = 0
      · simp only [callBody, cInitialize, if_pos h0]
        unfold HandleInv
        rw [if_pos (show 0 < l.count + 1 by omega)]
        have hsess : ∀ s ∈ addSession (addSession []), HOk 0 (n + 2) false (s.objs.map Obj.hb) := by
          intro s hs
          simp only [addSession, List.mem_cons, List.not_mem_nil, or_false] at hs
          rcases hs with rfl | rfl <;> exact .nil ..
        have hiv := (load_spec e.store l.disk l.uid _ k3).2.2.2
        rcases load_hb e.store l.disk l.uid ks k3 k2 with h1 | h1
        · refine ⟨?_, hsess, hiv, ?_⟩ <;> simp only [h1]
          · exact k1.mono (by omega)
          · exact k2
        · refine ⟨?_, hsess, hiv, ?_⟩ <;> simp only [h1, List.map_nil]
          · exact .nil ..
          · exact ⟨[], [], rfl, trivial, fun h => absurd rfl h⟩
      · simp only [callBody, cInitialize, if_neg h0]
        exact hsame _ (by omega)
    | cFinal =>
      have h0 : ¬ l.count - 1 = 0 := by omega
      simp only [callBody, cFinalize, if_neg h0]
      exact hsame _ (by omega)
    | slot id sc => simp only [callBody, if_pos hle]; exact hsame l.count hle
    | sess k sc => simp only [callBody, if_pos hle]; exact hsame l.count hle

theorem HandleInv.bad {n : Nat} {l : Lib} (h : HandleInv n l) (b : Bool) : HandleInv n { l with bad := b } := by
  unfold HandleInv at h ⊢
  split at h
  · rename_i hc
    rw [if_pos (show 0 < l.count from hc)]
    exact ⟨h.tok, h.sess, h.ivs, h.disk⟩
  · rename_i hc
    rw [if_neg (show ¬ 0 < l.count from hc)]
    exact h

theorem HandleInv.mono {n m : Nat} {l : Lib} (h : HandleInv n l) (hn : n ≤ m) : HandleInv m l := by
  unfold HandleInv at h ⊢
  split at h <;> rename_i hc
  · rw [if_pos hc]; exact h.mono hn
  · rw [if_neg hc]
    obtain ⟨ks, k1, k2, k3⟩ := h
    exact ⟨ks, k1.mono hn, k2, k3⟩

theorem HandleInv.step (hh : HashLen e) (hr : RandLen e) {l : Lib} (hs : SInv l) (hc : CapInv l) {n : Nat}
    (h : HandleInv n l) (hn : n + 2 < 2 ^ 28) (c : Call) (hb : BoolToken [c]) : HandleInv (n + 2) (step e l c).1 := by
  unfold Verif.step
  split
  · exact h.mono (by omega)
  · dsimp only
    split
    · exact (handleInv_callBody hh hr hs hc h hn c hb).bad true
    · exact handleInv_callBody hh hr hs hc h hn c hb

theorem HandleInv.run (hh : HashLen e) (hr : RandLen e) {l : Lib} (hs : SInv l) (hc : CapInv l) {n : Nat}
    (h : HandleInv n l) (cs : List Call) (hb : BoolToken cs) (hn : n + 2 * cs.length < 2 ^ 28) :
    HandleInv (n + 2 * cs.length) (run e l cs) := by
  induction cs generalizing l n with
  | nil => exact h
  | cons c cs ih =>
    simp only [List.length_cons] at hn ⊢
    have h1 := h.step hh hr hs hc (by omega) c (fun d hd => hb d (by
      rcases List.mem_cons.mp hd with rfl | hd
      · exact List.mem_cons_self
      · cases hd))
    have := ih (hs.step e c) (hc.step hh hr hs c) h1 (fun d hd => hb d (List.mem_cons_of_mem _ hd)) (by omega)
    have he : n + 2 + 2 * cs.length = n + 2 * (cs.length + 1) := by omega
    rw [he] at this
    exact this

theorem Start.handleInv {l : Lib} (h : Start l) (hd : NoToken l) : HandleInv 0 l := by
  unfold HandleInv
  rw [if_neg (by rw [h.count]; decide)]
  refine ⟨[], .nil .., ⟨[], [], rfl, trivial, fun h => absurd rfl h⟩, ?_⟩
  intro b r rest hb; rw [hd] at hb; cases hb

end Verif
