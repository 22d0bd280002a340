import Verif.Spec.Silent
import Verif.Proofs.Running
import Verif.Proofs.Isolated
import Verif.Proofs.Disk

/-!
# A key that is not used does not show
-/

namespace Verif

variable {e : Env} {x : KeyExt} {h k : Nat}

/-- Two objects that differ only in key material that no attribute shows. -/
structure Mute (x : KeyExt) (o o' : Obj) : Prop where
  data : ∃ d, o' = { o with data := d }
  get : ∀ t, getAttributeValue x o' t = getAttributeValue x o t
  mat : ∀ t, matchAll x o' t = matchAll x o t

/-- The same object, or the key that is not in use. -/
def OTw (x : KeyExt) (k : Nat) (cur : Option Nat) (o o' : Obj) : Prop :=
  o' = o ∨ (o.handle = k ∧ cur ≠ some o.uid ∧ Mute x o o')

theorem OTw.fields {cur : Option Nat} {o o' : Obj} (h : OTw x k cur o o') : ∃ d, o' = { o with data := d } := by
  rcases h with rfl | ⟨_, _, h⟩
  · exact ⟨_, rfl⟩
  · exact h.data

theorem OTw.get {cur : Option Nat} {o o' : Obj} (h : OTw x k cur o o') (t : List Entry) :
    getAttributeValue x o' t = getAttributeValue x o t := by
  rcases h with rfl | ⟨_, _, h⟩
  · rfl
  · exact h.get t

theorem OTw.mat {cur : Option Nat} {o o' : Obj} (h : OTw x k cur o o') (t : List Entry) : matchAll x o' t = matchAll x o t := by
  rcases h with rfl | ⟨_, _, h⟩
  · rfl
  · exact h.mat t

/-- Two sessions that differ only in that key. -/
structure STw (x : KeyExt) (h k : Nat) (s s' : Session) : Prop where
  eq : s' = { s with objs := s'.objs }
  objs : AllPairs (OTw x k s.curr) s.objs s'.objs
  other : s.handle ≠ h → s' = s

theorem AllPairs.diag {α : Type} {R : α → α → Prop} {as : List α} (h : ∀ a ∈ as, R a a) : AllPairs R as as := by
  induction as with
  | nil => exact .nil
  | cons a as ih => exact .cons (h a (List.mem_cons_self ..)) (ih fun b hb => h b (List.mem_cons_of_mem _ hb))

theorem AllPairs.imp {α β : Type} {R S : α → β → Prop} {as : List α} {bs : List β} (h : AllPairs R as bs)
    (hi : ∀ a ∈ as, ∀ b ∈ bs, R a b → S a b) : AllPairs S as bs := by
  induction h with
  | nil => exact .nil
  | cons h _ ih =>
    exact .cons (hi _ (List.mem_cons_self ..) _ (List.mem_cons_self ..) h)
      (ih fun a ha b hb => hi a (List.mem_cons_of_mem _ ha) b (List.mem_cons_of_mem _ hb))

theorem AllPairs.map {α β γ δ : Type} {R : α → β → Prop} {S : γ → δ → Prop} {f : α → γ} {g : β → δ} {as : List α} {bs : List β}
    (h : AllPairs R as bs) (hi : ∀ a ∈ as, ∀ b, R a b → S (f a) (g b)) : AllPairs S (as.map f) (bs.map g) := by
  induction h with
  | nil => exact .nil
  | cons h _ ih => exact .cons (hi _ (List.mem_cons_self ..) _ h) (ih fun a ha b => hi a (List.mem_cons_of_mem _ ha) b)

theorem AllPairs.filter {α β : Type} {R : α → β → Prop} {p : α → Bool} {q : β → Bool} {as : List α} {bs : List β}
    (h : AllPairs R as bs) (hi : ∀ a b, R a b → p a = q b) : AllPairs R (as.filter p) (bs.filter q) := by
  induction h with
  | nil => exact .nil
  | cons h _ ih =>
    rw [List.filter_cons, List.filter_cons, hi _ _ h]
    split
    · exact .cons h ih
    · exact ih

theorem AllPairs.len {α β : Type} {R : α → β → Prop} {as : List α} {bs : List β} (h : AllPairs R as bs) : bs.length = as.length := by
  induction h with
  | nil => rfl
  | cons _ _ ih => rw [List.length_cons, List.length_cons, ih]

theorem AllPairs.find {α β : Type} {R : α → β → Prop} {p : α → Bool} {q : β → Bool} {as : List α} {bs : List β}
    (h : AllPairs R as bs) (hi : ∀ a b, R a b → p a = q b) :
    (as.find? p = none ∧ bs.find? q = none) ∨ ∃ a b, as.find? p = some a ∧ bs.find? q = some b ∧ R a b := by
  induction h with
  | nil => exact .inl ⟨rfl, rfl⟩
  | @cons a b _ _ h _ ih =>
    rw [List.find?_cons, List.find?_cons, ← hi _ _ h]
    cases p a with
    | true => exact .inr ⟨a, b, rfl, rfl, h⟩
    | false => exact ih

theorem AllPairs.any {α β : Type} {R : α → β → Prop} {p : α → Bool} {q : β → Bool} {as : List α} {bs : List β}
    (h : AllPairs R as bs) (hi : ∀ a b, R a b → p a = q b) : bs.any q = as.any p := by
  induction h with
  | nil => rfl
  | cons h _ ih => rw [List.any_cons, List.any_cons, ih, hi _ _ h]

theorem AllPairs.eq {α : Type} {R : α → α → Prop} {as bs : List α} (h : AllPairs R as bs) (hi : ∀ a b, R a b → b = a) : bs = as := by
  induction h with
  | nil => rfl
  | cons h _ ih => rw [ih, hi _ _ h]

theorem STw.refl (s : Session) : STw x h k s s := ⟨rfl, AllPairs.diag fun _ _ => .inl rfl, fun _ => rfl⟩

theorem STw.handle {s s' : Session} (t : STw x h k s s') : s'.handle = s.handle := by rw [t.eq]
theorem STw.use {s s' : Session} (t : STw x h k s s') : s'.use = s.use := by rw [t.eq]
theorem STw.curr {s s' : Session} (t : STw x h k s s') : s'.curr = s.curr := by rw [t.eq]
theorem STw.op {s s' : Session} (t : STw x h k s s') : s'.op = s.op := by rw [t.eq]
theorem STw.find {s s' : Session} (t : STw x h k s s') : s'.find = s.find := by rw [t.eq]

/-- Two libraries that differ only in that key. -/
structure LTw (x : KeyExt) (h k : Nat) (l l' : Lib) : Prop where
  eq : l' = { l with sessions := l'.sessions }
  ses : AllPairs (STw x h k) l.sessions l'.sessions

theorem LTw.refl (l : Lib) : LTw x h k l l := ⟨rfl, AllPairs.diag fun s _ => .refl s⟩

/-- Two outcomes that differ only in that key. -/
def RTw (x : KeyExt) (h k : Nat) (r r' : Lib × Resp) : Prop := LTw x h k r.1 r'.1 ∧ r'.2 = r.2

theorem LTw.token {l l' : Lib} (t : LTw x h k l l') : l'.token = l.token := by rw [t.eq]
theorem LTw.count {l l' : Lib} (t : LTw x h k l l') : l'.count = l.count := by rw [t.eq]
theorem LTw.uid {l l' : Lib} (t : LTw x h k l l') : l'.uid = l.uid := by rw [t.eq]
theorem LTw.rng {l l' : Lib} (t : LTw x h k l l') : l'.rng = l.rng := by rw [t.eq]
theorem LTw.bad {l l' : Lib} (t : LTw x h k l l') : l'.bad = l.bad := by rw [t.eq]
theorem LTw.disk {l l' : Lib} (t : LTw x h k l l') : l'.disk = l.disk := by rw [t.eq]

/-- A change that has nothing to do with sessions. -/
theorem LTw.lift {l l' : Lib} (t : LTw x h k l l') (f : Lib → Lib) (hf : ∀ (m : Lib) (ss : List Session), f { m with sessions := ss } = { f m with sessions := ss })
    : LTw x h k (f l) (f l') := by
  have h1 : (f l).sessions = l.sessions := by rw [show f l = f { l with sessions := l.sessions } from rfl, hf]
  have h2 : f l' = { f l with sessions := l'.sessions } := by rw [← hf, ← t.eq]
  refine ⟨by rw [h2], ?_⟩
  rw [h1, h2]
  exact t.ses

theorem LTw.upd {l l' : Lib} (t : LTw x h k l l') (j : Nat) (f f' : Session → Session)
    (hf : ∀ s ∈ l.sessions, s.handle = j → ∀ s', STw x h k s s' → STw x h k (f s) (f' s')) : LTw x h k (l.upd j f) (l'.upd j f') := by
  refine ⟨by unfold Lib.upd; rw [t.eq], ?_⟩
  refine t.ses.map fun a ha b hab => ?_
  rw [hab.handle]
  split
  · exact hf a ha ‹_› b hab
  · exact hab

theorem LTw.getSession {l l' : Lib} (t : LTw x h k l l') (j : Nat) :
    (Verif.getSession l j = none ∧ Verif.getSession l' j = none) ∨
    ∃ s s', Verif.getSession l j = some s ∧ Verif.getSession l' j = some s' ∧ STw x h k s s' := by
  unfold Verif.getSession
  split
  · exact .inl ⟨rfl, rfl⟩
  rcases t.ses.find (p := fun s => s.handle == j) (q := fun s => s.handle == j) fun a b hab => by rw [hab.handle] with ⟨h1, h2⟩ | ⟨s, s', h1, h2, h3⟩
  · rw [h1, h2]; exact .inl ⟨rfl, rfl⟩
  · rw [h1, h2]
    simp only [Option.bind_some, h3.use]
    split
    · exact .inl ⟨rfl, rfl⟩
    · exact .inr ⟨s, s', rfl, rfl, h3⟩

theorem LTw.findObj {l l' : Lib} (t : LTw x h k l l') {s s' : Session} (u : STw x h k s s') (i : Nat) :
    (Verif.findObj l s i = none ∧ Verif.findObj l' s' i = none) ∨
    ∃ o o', Verif.findObj l s i = some o ∧ Verif.findObj l' s' i = some o' ∧ OTw x k s.curr o o' ∧ o.handle = i ∧
      (s.handle ≠ h → o' = o) := by
  unfold Verif.findObj
  rw [t.token]
  have same : ∀ os : List Obj, ((os.find? fun o => o.handle == i) = none ∧ (os.find? fun o => o.handle == i) = none) ∨
      ∃ o o', (os.find? fun o => o.handle == i) = some o ∧ (os.find? fun o => o.handle == i) = some o' ∧ OTw x k s.curr o o' ∧ o.handle = i ∧
        (s.handle ≠ h → o' = o) := by
    intro os
    cases hf : os.find? fun o => o.handle == i with
    | none => exact .inl ⟨rfl, rfl⟩
    | some o => exact .inr ⟨o, o, rfl, rfl, .inl rfl, by simpa using List.find?_some hf, fun _ => rfl⟩
  split
  · exact same _
  by_cases hs : s.handle = h
  · rcases u.objs.find (p := fun o => o.handle == i) (q := fun o => o.handle == i) fun a b hab => by
      obtain ⟨d, rfl⟩ := hab.fields; rfl with ⟨h1, h2⟩ | ⟨o, o', h1, h2, h3⟩
    · exact .inl ⟨h1, h2⟩
    · exact .inr ⟨o, o', h1, h2, h3, by simpa using List.find?_some h1, fun hn => absurd hs hn⟩
  · rw [u.other hs]; exact same _

/-- Another handle names the same object on both sides. -/
theorem LTw.findOther {l l' : Lib} (t : LTw x h k l l') {s s' : Session} (u : STw x h k s s') {i : Nat} (hi : ¬ (s.handle = h ∧ i = k)) :
    Verif.findObj l' s' i = Verif.findObj l s i := by
  rcases t.findObj u i with ⟨h1, h2⟩ | ⟨o, o', h1, h2, h3, h4, h5⟩
  · rw [h1, h2]
  · rw [h1, h2]
    by_cases hs : s.handle = h
    · rcases h3 with rfl | ⟨h6, _⟩
      · rfl
      · exact absurd ⟨hs, h4.symm.trans h6⟩ hi
    · rw [h5 hs]

theorem LTw.currKey {l l' : Lib} (t : LTw x h k l l') {s s' : Session} (u : STw x h k s s') : Verif.currKey l' s' = Verif.currKey l s := by
  unfold Verif.currKey
  rw [u.curr, t.token]
  cases hc : s.curr with
  | none => rfl
  | some v =>
    have : (s'.objs ++ l.token.objs).find? (fun o => o.uid == v) = (s.objs ++ l.token.objs).find? fun o => o.uid == v := by
      rw [List.find?_append, List.find?_append]
      rcases u.objs.find (p := fun o => o.uid == v) (q := fun o => o.uid == v) fun a b hab => by
        obtain ⟨d, rfl⟩ := hab.fields; rfl with ⟨h1, h2⟩ | ⟨o, o', h1, h2, h3⟩
      · rw [h1, h2]
      · rw [h1, h2]
        rcases h3 with rfl | ⟨_, h3, _⟩
        · rfl
        · refine absurd ?_ h3
          rw [hc]
          have := List.find?_some h1
          simp only [beq_iff_eq] at this
          rw [this]
    dsimp only
    rw [this]

/-! ## Changes of a session -/

theorem STw.objsEq {s s' : Session} (u : STw x h k s s') (g : Session → Session)
    (hg : ∀ (t : Session) (os : List Obj), g { t with objs := os } = { g t with objs := os }) (hh : (g s).handle = s.handle) (hc : (g s).curr = s.curr) : STw x h k (g s) (g s') := by
  have h1 : (g s).objs = s.objs := by rw [show g s = g { s with objs := s.objs } from rfl, hg]
  have h2 : g s' = { g s with objs := s'.objs } := by rw [← hg, ← u.eq]
  refine ⟨by rw [h2], ?_, fun hn => ?_⟩
  · rw [h1, h2, hc]; exact u.objs
  · rw [u.other (hh ▸ hn)]

/-- A change of the session's operation. -/
theorem LTw.updOp {l l' : Lib} (t : LTw x h k l l') (j : Nat) (o : OpSt) :
    LTw x h k (l.upd j fun u => { u with op := o }) (l'.upd j fun u => { u with op := o }) :=
  t.upd j _ _ fun _ _ _ _ u => u.objsEq (fun v => { v with op := o }) (fun _ _ => rfl) rfl rfl

/-- The current key becomes one that is the same on both sides. -/
theorem LTw.updCurr {l l' : Lib} (t : LTw x h k l l') (hp : l.PopA) (hn : (handles l.sessions).Nodup) {s : Session} (hs : s ∈ l.sessions) {i : Nat}
    (hi : ¬ (s.handle = h ∧ i = k)) {o : Obj} (ho : Verif.findObj l s i = some o) (op : OpSt) (b : Prop) [Decidable b] :
    LTw x h k (l.upd s.handle fun u => { u with op := op, curr := if b then some o.uid else u.curr })
      (l'.upd s.handle fun u => { u with op := op, curr := if b then some o.uid else u.curr }) := by
  refine t.upd _ _ _ fun v hv hvs v' u => ?_
  have hvs : v = s := by
    have h1 : l.sessions.find? (fun z => z.handle == s.handle) = some v := (find_iff hn).mpr ⟨hv, hvs⟩
    have h2 : l.sessions.find? (fun z => z.handle == s.handle) = some s := (find_iff hn).mpr ⟨hs, rfl⟩
    exact Option.some.inj (h1.symm.trans h2)
  subst hvs
  by_cases hh : v.handle = h
  · by_cases hb : b
    · simp only [if_pos hb]
      refine ⟨by rw [u.eq], u.objs.imp fun a ha c _ hac => ?_, fun hne => by rw [u.other hne]⟩
      rcases hac with rfl | ⟨h1, h2, h3⟩
      · exact .inl rfl
      · refine .inr ⟨h1, fun hx => ?_, h3⟩
        have hx : o.uid = a.uid := Option.some.inj hx
        have e1 := uid_find hp hs (o := o) (findObj_memAll ho)
        have e2 := uid_find hp hs (o := a) (List.mem_append_left _ ha)
        rw [hx] at e1
        have hoa : o = a := Option.some.inj (e1.symm.trans e2)
        subst hoa
        exact hi ⟨hh, (findObj_parts ho).1.symm.trans h1⟩
    · simp only [if_neg hb]
      exact u.objsEq (fun v => { v with op := op }) (fun _ _ => rfl) rfl rfl
  · rw [u.other hh]
    exact .refl _

/-! ## Closing and opening -/

theorem STw.final {s s' : Session} (u : STw x h k s s') : STw x h k (sessFinal s) (sessFinal s') := by
  refine ⟨?_, ?_, fun hn => ?_⟩
  · unfold sessFinal; rw [u.eq]
  · unfold sessFinal
    rw [u.use]
    dsimp only
    split
    · exact u.objs.imp fun a _ b _ hab => by
        rcases hab with rfl | ⟨h1, _, h3⟩
        · exact .inl rfl
        · exact .inr ⟨h1, by simp, h3⟩
    · exact .nil
  · rw [u.other hn]

theorem tw_dropUnused {ss ss' : List Session} (t : AllPairs (STw x h k) ss ss') : AllPairs (STw x h k) (dropUnused ss) (dropUnused ss') := by
  induction t with
  | nil => exact .nil
  | cons u r ih =>
    unfold dropUnused
    rw [u.use, u.handle]
    split
    · exact ih
    · exact .cons u r

theorem tw_closeOne {ss ss' : List Session} (t : AllPairs (STw x h k) ss ss') (j : Nat) :
    AllPairs (STw x h k) (closeOne ss j) (closeOne ss' j) := by
  cases t with
  | nil => exact .nil
  | cons u r =>
    unfold closeOne
    dsimp only
    rw [u.handle]
    split
    · exact tw_dropUnused r
    · refine (AllPairs.cons u r).map fun a _ b hab => ?_
      rw [hab.handle]
      split
      · exact hab.final
      · exact hab

theorem tw_closeDown (n : Nat) {ss ss' : List Session} (t : AllPairs (STw x h k) ss ss') :
    AllPairs (STw x h k) (closeDown n ss) (closeDown n ss') := by
  induction n generalizing ss ss' with
  | zero => exact t
  | succ n ih =>
    cases t with
    | nil => exact .nil
    | cons u r =>
      unfold closeDown
      dsimp only
      rw [u.handle]
      split
      · exact ih (tw_dropUnused r)
      · exact .cons u r

theorem tw_closeAll {ss ss' : List Session} (t : AllPairs (STw x h k) ss ss') : AllPairs (STw x h k) (closeAll ss) (closeAll ss') := by
  unfold closeAll
  rw [t.len]
  have ht := tw_closeDown ss.length t
  generalize closeDown ss.length ss = a at ht
  generalize closeDown ss.length ss' = b at ht
  cases ht with
  | nil => exact .nil
  | cons u r => exact .cons u.final r

theorem tw_anyInUse {ss ss' : List Session} (t : AllPairs (STw x h k) ss ss') : anyInUse ss' = anyInUse ss :=
  t.any fun a b hab => by rw [hab.use]

theorem LTw.logout {l l' : Lib} (t : LTw x h k l l') : LTw x h k (Verif.logout e l) (Verif.logout e l') :=
  t.lift (Verif.logout e) fun _ _ => rfl

theorem tw_close {l l' : Lib} (t : LTw x h k l l') (j : Nat) : RTw x h k (closeSession e l j) (closeSession e l' j) := by
  have t2 := tw_closeOne t.ses j
  have t3 : LTw x h k { l with sessions := closeOne l.sessions j } { l' with sessions := closeOne l'.sessions j } :=
    ⟨by rw [t.eq], t2⟩
  refine ⟨?_, rfl⟩
  unfold closeSession
  dsimp only
  rw [tw_anyInUse t2]
  split
  · exact t3
  · exact t3.logout

theorem tw_open {l l' : Lib} (t : LTw x h k l l') (rw' : Bool) : RTw x h k (openSession l rw') (openSession l' rw') := by
  unfold openSession
  dsimp only
  rw [t.token]
  split
  · exact ⟨t, rfl⟩
  rcases t.ses.find (p := fun s => s.use == .no) (q := fun s => s.use == .no) fun a b hab => by rw [hab.use] with ⟨h1, h2⟩ | ⟨s, s', h1, h2, h3⟩
  · rw [h1, h2]
    dsimp only
    have hh : (l'.sessions.head?.any fun s => sessId s.handle == sessMax) = l.sessions.head?.any fun s => sessId s.handle == sessMax := by
      have ht := t.ses
      generalize l.sessions = a at ht
      generalize l'.sessions = b at ht
      cases ht with
      | nil => rfl
      | cons u _ => simp only [List.head?_cons, Option.any_some, u.handle]
    rw [hh]
    split
    · exact ⟨t, rfl⟩
    have hx := t.ses
    have he := t.eq
    generalize hss : l.sessions = ss at hx
    generalize hss' : l'.sessions = ss' at hx
    rw [hss'] at he
    cases hx with
    | nil => exact ⟨⟨by rw [he]; rfl, .cons (.refl _) .nil⟩, rfl⟩
    | cons u r =>
      unfold addSession
      dsimp only
      rw [u.handle]
      exact ⟨⟨by rw [he], .cons (.refl _) (.cons u r)⟩, rfl⟩
  · rw [h1, h2]
    dsimp only
    rw [h3.handle]
    exact ⟨t.upd _ _ _ fun _ _ _ _ u => u.objsEq (fun v => { v with use := if rw' = true then Use.rw else Use.ro }) (fun _ _ => rfl) rfl rfl, rfl⟩

/-! ## Objects -/

theorem tw_nextHandle {c : Option Nat} {os os' : List Obj} (t : AllPairs (OTw x k c) os os') (on : Nat) : nextHandle os' on = nextHandle os on := by
  cases t with
  | nil => rfl
  | cons u _ => obtain ⟨d, rfl⟩ := u.fields; rfl

theorem STw.addObj {s s' : Session} (u : STw x h k s s') (o : Obj) : STw x h k { s with objs := o :: s.objs } { s' with objs := o :: s'.objs } :=
  ⟨by rw [u.eq], .cons (.inl rfl) u.objs, fun hn => by rw [u.other hn]⟩

theorem tw_sessAdd {l l' : Lib} (t : LTw x h k l l') {s s' : Session} (u : STw x h k s s') (on : Nat) (o : Obj) :
    LTw x h k (sessAddObject e l s on o).1 (sessAddObject e l' s' on o).1 ∧ (sessAddObject e l' s' on o).2 = (sessAddObject e l s on o).2 := by
  unfold sessAddObject
  dsimp only
  rw [t.uid, t.token, u.objs.len, tw_nextHandle u.objs, u.handle]
  split
  · split
    · exact ⟨t, rfl⟩
    split
    · exact ⟨(t.lift (fun m => (Lib.store e { m with uid := l.uid + 1, token := { l.token with objs :=
        { (encodeObj e.store l.token.key false { o with onToken := decide (on % 2 = 1), uid := l.uid }).2 with handle := nextHandle l.token.objs on } :: l.token.objs } }).1) fun _ _ => rfl), rfl⟩
    · exact ⟨t, rfl⟩
  · split
    · exact ⟨t, rfl⟩
    · refine ⟨?_, rfl⟩
      have hX := (t.lift (fun m => { m with uid := l.uid + 1 }) fun _ _ => rfl).upd s.handle
        (fun v => { v with objs := { o with onToken := decide (on % 2 = 1), uid := l.uid, handle := nextHandle s.objs on } :: v.objs })
        (fun v => { v with objs := { o with onToken := decide (on % 2 = 1), uid := l.uid, handle := nextHandle s.objs on } :: v.objs })
        fun _ _ _ _ v => v.addObj _
      simp only [t.token] at hX
      exact hX

theorem tw_addObject {l l' : Lib} (t : LTw x h k l l') {s s' : Session} (u : STw x h k s s') (tm : List Entry) (o : Obj) :
    RTw x h k (addObject e l s tm o) (addObject e l' s' tm o) := by
  unfold addObject
  cases tokenByte tm 0 with
  | error rv => exact ⟨t, rfl⟩
  | ok on =>
    obtain ⟨h1, h2⟩ := tw_sessAdd (e := e) t u on o
    dsimp only
    generalize sessAddObject e l s on o = a at h1 h2
    generalize sessAddObject e l' s' on o = b at h1 h2
    obtain ⟨a1, a2⟩ := a
    obtain ⟨b1, b2⟩ := b
    cases h2
    cases a2 <;> exact ⟨h1, rfl⟩

theorem tw_newObject {s s' : Session} (u : STw x h k s s') (typ cls : Nat) (tm : List Entry) : newObject e s' typ cls tm = newObject e s typ cls tm := by
  unfold newObject; rw [u.use]

theorem tw_createObject {s s' : Session} (u : STw x h k s s') (tm : List Entry) : createObject e s' tm = createObject e s tm := by
  unfold createObject; simp only [tw_newObject u]

theorem tw_create {l l' : Lib} (t : LTw x h k l l') {s s' : Session} (u : STw x h k s s') (tm : Option (List Entry)) (ptr : Bool) :
    RTw x h k (cCreate e l s tm ptr) (cCreate e l' s' tm ptr) := by
  unfold cCreate
  cases tm with
  | none => exact ⟨t, rfl⟩
  | some tm =>
    dsimp only
    rw [u.use, tw_createObject u]
    split
    · exact ⟨t, rfl⟩
    split
    · exact ⟨t, rfl⟩
    obtain ⟨rv, o⟩ := createObject e s tm
    cases rv <;> first
      | exact tw_addObject t u ..
      | exact ⟨t, rfl⟩

theorem tw_copy {l l' : Lib} (t : LTw e.key h k l l') {s s' : Session} (u : STw e.key h k s s') (i : Nat) (tm : Option (List Entry)) (ptr : Bool) :
    RTw e.key h k (cCopy e l s i tm ptr) (cCopy e l' s' i tm ptr) := by
  unfold cCopy
  cases tm with
  | none => exact ⟨t, rfl⟩
  | some tm =>
    dsimp only
    rw [u.use]
    split
    · exact ⟨t, rfl⟩
    split
    · exact ⟨t, rfl⟩
    rcases t.findObj u i with ⟨h1, h2⟩ | ⟨o, o', h1, h2, h3, _, _⟩
    · rw [h1, h2]; exact ⟨t, rfl⟩
    rw [h1, h2]
    dsimp only
    have ht : o'.typ = o.typ := by obtain ⟨d, rfl⟩ := h3.fields; rfl
    rw [h3.get, ht]
    cases tokenByte tm 0 with
    | error rv => exact ⟨t, rfl⟩
    | ok on =>
      dsimp only
      split
      · exact ⟨t, rfl⟩
      split
      · exact ⟨t, rfl⟩
      generalize (setAttributeValue e.key true (newObj 0 o.typ) (getAttributeValue e.key o tm).2).2 = n
      obtain ⟨h1, h2⟩ := tw_sessAdd (e := e) t u on n
      generalize sessAddObject e l s on n = a at h1 h2
      generalize sessAddObject e l' s' on n = b at h1 h2
      obtain ⟨a1, a2⟩ := a
      obtain ⟨b1, b2⟩ := b
      cases h2
      cases a2 <;> exact ⟨h1, rfl⟩

theorem tw_destroy {l l' : Lib} (t : LTw x h k l l') {s s' : Session} (u : STw x h k s s') (i : Nat) :
    RTw x h k (cDestroy e l s i) (cDestroy e l' s' i) := by
  unfold cDestroy
  rw [u.use]
  split
  · exact ⟨t, rfl⟩
  rcases t.findObj u i with ⟨h1, h2⟩ | ⟨o, o', h1, h2, h3, _, _⟩
  · rw [h1, h2]; exact ⟨t, rfl⟩
  cases hon : handleOnToken i with
  | true =>
    have : o' = o := by
      unfold Verif.findObj at h1 h2
      rw [t.token] at h2
      simp only [hon, if_true] at h1 h2
      exact Option.some.inj (h2.symm.trans h1)
    subst this
    rw [h1, h2]
    simp only [if_true]
    split
    · exact ⟨t.lift (fun m => removeToken e m o') fun _ _ => rfl, rfl⟩
    · exact ⟨t.lift (fun m => { m with bad := true }) fun _ _ => rfl, rfl⟩
  | false =>
    rw [h1, h2]
    simp only [Bool.false_eq_true, if_false]
    have hu : o'.uid = o.uid := by obtain ⟨d, rfl⟩ := h3.fields; rfl
    rw [hu, u.handle]
    refine ⟨t.upd _ _ _ fun a _ _ b v => ⟨by rw [v.eq], ?_, fun hn => by rw [v.other hn]⟩, rfl⟩
    exact v.objs.filter fun p q hpq => by obtain ⟨d, rfl⟩ := hpq.fields; rfl

theorem tw_getAttr {l l' : Lib} (t : LTw e.key h k l l') {s s' : Session} (u : STw e.key h k s s') (i : Nat) (tm : Option (List Entry)) :
    RTw e.key h k (cGetAttr e l s i tm) (cGetAttr e l' s' i tm) := by
  unfold cGetAttr
  cases tm with
  | none => exact ⟨t, rfl⟩
  | some tm =>
    dsimp only
    rcases t.findObj u i with ⟨h1, h2⟩ | ⟨o, o', h1, h2, h3, _, _⟩
    · rw [h1, h2]; exact ⟨t, rfl⟩
    · rw [h1, h2]
      dsimp only
      rw [h3.get]
      exact ⟨t, rfl⟩

theorem tw_setAttr {l l' : Lib} (t : LTw x h k l l') (hp : l.PopA) (hn : (handles l.sessions).Nodup) {s s' : Session} (hs : s ∈ l.sessions)
    (u : STw x h k s s') {i : Nat} (hi : ¬ (s.handle = h ∧ i = k)) (tm : Option (List Entry)) :
    RTw x h k (cSetAttr e l s i tm) (cSetAttr e l' s' i tm) := by
  unfold cSetAttr
  cases tm with
  | none => exact ⟨t, rfl⟩
  | some tm =>
    dsimp only
    rw [u.use, t.findOther u hi]
    split
    · exact ⟨t, rfl⟩
    cases ho : Verif.findObj l s i with
    | none => exact ⟨t, rfl⟩
    | some o =>
      dsimp only
      refine ⟨?_, rfl⟩
      have hk : (setAttributeValue e.key true o tm).2.uid = o.uid := by
        have := (setAttributeValue_key e.key true o tm).1
        exact (congrArg (fun z : Nat × Nat × Bool => z.2.1) this :)
      generalize (setAttributeValue e.key true o tm).2 = o2 at hk
      unfold putObj
      rw [u.handle]
      split
      · rw [t.token]
        exact t.lift (fun m => { m with token := { l.token with objs := replObj o2 l.token.objs } }) fun _ _ => rfl
      · refine t.upd _ _ _ fun v hv hvs v' w => ⟨by rw [w.eq], ?_, fun hne => by rw [w.other hne]⟩
        have hvs : v = s := by
          have h1 : l.sessions.find? (fun z => z.handle == s.handle) = some v := (find_iff hn).mpr ⟨hv, hvs⟩
          have h2 : l.sessions.find? (fun z => z.handle == s.handle) = some s := (find_iff hn).mpr ⟨hs, rfl⟩
          exact Option.some.inj (h1.symm.trans h2)
        subst hvs
        by_cases hh : v.handle = h
        · unfold replObj
          refine w.objs.map fun a ha b hab => ?_
          rcases hab with rfl | ⟨h1, h2, h3⟩
          · exact .inl rfl
          · have hne : ¬ a.uid = o2.uid := by
              intro hx
              rw [hk] at hx
              have e1 := uid_find hp hs (o := o) (findObj_memAll ho)
              have e2 := uid_find hp hs (o := a) (List.mem_append_left _ ha)
              rw [← hx] at e1
              have hoa : o = a := Option.some.inj (e1.symm.trans e2)
              subst hoa
              exact hi ⟨hh, (findObj_parts ho).1.symm.trans h1⟩
            obtain ⟨d, rfl⟩ := h3.data
            simp only [if_neg hne]
            exact .inr ⟨h1, h2, h3⟩
        · rw [w.other hh]
          exact AllPairs.diag fun _ _ => .inl rfl

theorem tw_findLoop {c : Option Nat} (lg : Login) (tm : List Entry) {os os' : List Obj} (t : AllPairs (OTw x k c) os os') (acc : List Nat) :
    findLoop x lg tm os' acc = findLoop x lg tm os acc := by
  induction t generalizing acc with
  | nil => rfl
  | cons u _ ih =>
    unfold findLoop
    rw [u.mat]
    obtain ⟨d, rfl⟩ := u.fields
    simp only [ih]
    rfl

theorem AllPairs.append {α β : Type} {R : α → β → Prop} {as cs : List α} {bs ds : List β} (h : AllPairs R as bs) (h' : AllPairs R cs ds) :
    AllPairs R (as ++ cs) (bs ++ ds) := by
  induction h with
  | nil => exact h'
  | cons h _ ih => exact .cons h ih

theorem tw_findInit {l l' : Lib} (t : LTw e.key h k l l') {s s' : Session} (u : STw e.key h k s s') (tm : Option (List Entry)) :
    RTw e.key h k (cFindInit e l s tm) (cFindInit e l' s' tm) := by
  unfold cFindInit
  cases tm with
  | none => exact ⟨t, rfl⟩
  | some tm =>
    dsimp only
    rw [u.find, u.handle, t.token]
    have hl : ∀ os : List Obj, findLoop e.key l.token.login tm (s'.objs ++ os) [] = findLoop e.key l.token.login tm (s.objs ++ os) [] := fun os =>
      tw_findLoop _ _ (u.objs.append (AllPairs.diag fun _ _ => .inl rfl)) _
    have hu : ∀ f : FindSt, LTw e.key h k (l.upd s.handle fun v => { v with find := f }) (l'.upd s.handle fun v => { v with find := f }) := fun f =>
      t.upd _ _ _ fun _ _ _ _ v => v.objsEq (fun w => { w with find := f }) (fun _ _ => rfl) rfl rfl
    split
    · exact ⟨t, rfl⟩
    cases tokenByte tm 1 with
    | error rv => exact ⟨hu _, rfl⟩
    | ok on =>
      dsimp only
      rw [hl]
      split
      · exact ⟨hu _, rfl⟩
      split
      · exact ⟨hu _, rfl⟩
      · exact ⟨hu _, rfl⟩

theorem tw_findNext {l l' : Lib} (t : LTw x h k l l') {s s' : Session} (u : STw x h k s s') (ptr : Bool) (n : Nat) :
    RTw x h k (cFindNext l s ptr n) (cFindNext l' s' ptr n) := by
  unfold cFindNext
  rw [u.find, u.handle]
  split
  · exact ⟨t, rfl⟩
  · exact ⟨t.upd _ _ _ fun a _ _ b v => v.objsEq (fun w => { w with find := { w.find with curr := w.find.curr + ((List.drop s.find.curr s.find.found).take (toCInt n).toNat).length } }) (fun _ _ => rfl) rfl rfl, rfl⟩

/-! ## Cryptographic calls -/

theorem tw_cryptInit {l l' : Lib} (t : LTw x h k l l') (hp : l.PopA) (hn : (handles l.sessions).Nodup) {s s' : Session} (hs : s ∈ l.sessions)
    (u : STw x h k s s') (kd : Kind) (m : Option (Mech × MechParam)) {i : Nat} (hi : ¬ (s.handle = h ∧ i = k)) :
    RTw x h k (cCryptInit e l s kd m i) (cCryptInit e l' s' kd m i) := by
  unfold cCryptInit
  cases m with
  | none => exact ⟨t, rfl⟩
  | some m =>
    obtain ⟨m, p⟩ := m
    dsimp only
    rw [t.findOther u hi, u.op, u.handle]
    cases ho : Verif.findObj l s i with
    | none => exact ⟨t, rfl⟩
    | some o =>
      dsimp only
      split
      · exact ⟨t, rfl⟩
      · exact ⟨t.updCurr hp hn hs hi ho _ _, rfl⟩

theorem tw_crypt {l l' : Lib} (t : LTw x h k l l') {s s' : Session} (u : STw x h k s s') (c : DataCall) :
    RTw x h k (cCrypt e l s c) (cCrypt e l' s' c) := by
  unfold cCrypt
  rw [t.currKey u, u.op, u.handle]
  cases Verif.currKey l s with
  | null => exact ⟨t.updOp _ _, rfl⟩
  | obj o => exact ⟨t.updOp _ _, rfl⟩
  | freed =>
    dsimp only
    split <;> exact ⟨t, rfl⟩

theorem tw_genKey {l l' : Lib} (t : LTw x h k l l') {s s' : Session} (u : STw x h k s s') (m : Option (Mech × MechParam)) (tm : Option (List Entry))
    (ptr : Bool) : RTw x h k (cGenKey e l s m tm ptr) (cGenKey e l' s' m tm ptr) := by
  unfold cGenKey
  rcases m with _ | ⟨m, p⟩
  · exact ⟨t, rfl⟩
  rcases tm with _ | tm
  · exact ⟨t, rfl⟩
  dsimp only
  rw [tw_newObject u, t.rng]
  split
  · exact ⟨t, rfl⟩
  split
  · exact ⟨t, rfl⟩
  split
  · exact ⟨t, rfl⟩
  obtain ⟨rv, o⟩ := newObject e s CKK_AES CKO_SECRET_KEY tm
  cases rv <;> first
    | exact tw_addObject (t.lift (fun m => { m with rng := l.rng + 1 }) fun _ _ => rfl) u ..
    | exact ⟨t, rfl⟩

theorem tw_addPair {l l' : Lib} (t : LTw x h k l l') {s s' : Session} (u : STw x h k s s') (tp tq : List Entry) (p q : Obj) :
    RTw x h k (addPair e l s tp tq p q) (addPair e l' s' tp tq p q) := by
  unfold addPair
  obtain ⟨h1, h2⟩ := tw_addObject (e := e) t u tp p
  generalize addObject e l s tp p = a at h1 h2
  generalize addObject e l' s' tp p = b at h1 h2
  obtain ⟨a1, a2⟩ := a
  obtain ⟨b1, b2⟩ := b
  cases h2
  dsimp only at h1 ⊢
  rw [u.handle]
  split
  · exact ⟨h1, rfl⟩
  rcases h1.ses.find (p := fun z => z.handle == s.handle) (q := fun z => z.handle == s.handle) fun a b hab => by rw [hab.handle]
    with ⟨g1, g2⟩ | ⟨s1, s1', g1, g2, g3⟩
  · rw [g1, g2]; exact ⟨h1, rfl⟩
  rw [g1, g2]
  dsimp only
  obtain ⟨i1, i2⟩ := tw_addObject (e := e) h1 g3 tq q
  generalize addObject e a1 s1 tq q = c at i1 i2
  generalize addObject e b1 s1' tq q = d at i1 i2
  obtain ⟨c1, c2⟩ := c
  obtain ⟨d1, d2⟩ := d
  cases i2
  dsimp only at i1 ⊢
  split
  · exact ⟨i1.lift (fun m => { m with bad := true }) fun _ _ => rfl, rfl⟩
  · exact ⟨i1, rfl⟩

theorem tw_genPair {l l' : Lib} (t : LTw x h k l l') {s s' : Session} (u : STw x h k s s') (m : Option (Mech × MechParam))
    (tp tq : Option (List Entry)) (ptrs : Bool) : RTw x h k (cGenPair e l s m tp tq ptrs) (cGenPair e l' s' m tp tq ptrs) := by
  unfold cGenPair
  rcases m with _ | ⟨m, p⟩
  · exact ⟨t, rfl⟩
  rcases tp with _ | tp
  · exact ⟨t, rfl⟩
  rcases tq with _ | tq
  · exact ⟨t, rfl⟩
  dsimp only
  rw [t.rng]
  split
  · exact ⟨t, rfl⟩
  cases pairGen e l.rng m with
  | none => exact ⟨t, rfl⟩
  | some g =>
    obtain ⟨typ, gen⟩ := g
    dsimp only
    rw [tw_newObject u, tw_newObject u]
    split
    · exact ⟨t, rfl⟩
    obtain ⟨rv, pub⟩ := newObject e s typ CKO_PUBLIC_KEY tp
    cases rv <;> try exact ⟨t, rfl⟩
    dsimp only
    obtain ⟨rv, priv⟩ := newObject e s typ CKO_PRIVATE_KEY tq
    cases rv <;> try exact ⟨t, rfl⟩
    dsimp only
    have t1 := t.lift (fun m => { m with rng := l.rng + 1 }) fun _ _ => rfl
    obtain ⟨rv, a, b⟩ := gen pub priv
    cases rv <;> first
      | exact ⟨t, rfl⟩
      | exact tw_addPair t1 u ..
      | exact ⟨t1, rfl⟩

theorem LTw.updWith {l l' : Lib} (t : LTw x h k l l') (hp : l.PopA) (hn : (handles l.sessions).Nodup) {s : Session} (hs : s ∈ l.sessions) {i : Nat}
    (hi : ¬ (s.handle = h ∧ i = k)) {o : Obj} (ho : Verif.findObj l s i = some o) (op : OpSt) :
    LTw x h k (l.upd s.handle fun u => { u with op := op, curr := some o.uid })
      (l'.upd s.handle fun u => { u with op := op, curr := some o.uid }) := by
  have := t.updCurr hp hn hs hi ho op True
  simpa only [if_true] using this

theorem tw_wrap {l l' : Lib} (t : LTw x h k l l') (hp : l.PopA) (hn : (handles l.sessions).Nodup) {s s' : Session} (hs : s ∈ l.sessions)
    (u : STw x h k s s') (m : Option (Mech × MechParam)) {wk i : Nat} (hw : ¬ (s.handle = h ∧ wk = k)) (hi : ¬ (s.handle = h ∧ i = k)) (ob : OutBuf) :
    RTw x h k (cWrap e l s m wk i ob) (cWrap e l' s' m wk i ob) := by
  unfold cWrap
  rcases m with _ | ⟨m, p⟩
  · exact ⟨t, rfl⟩
  dsimp only
  rw [t.findOther u hi, t.findOther u hw, u.op, u.handle, u.use]
  split
  · exact ⟨t, rfl⟩
  split
  · exact ⟨t, rfl⟩
  cases Verif.findObj l s i with
  | none => exact ⟨t, rfl⟩
  | some kx =>
    cases ho : Verif.findObj l s wk with
    | none => exact ⟨t, rfl⟩
    | some w =>
      dsimp only
      split
      · exact ⟨t, rfl⟩
      cases e.pkcs8 kx.rsa with
      | none => exact ⟨t, rfl⟩
      | some der =>
        dsimp only
        split
        · exact ⟨t, rfl⟩
        split
        · exact ⟨t, rfl⟩
        split
        · exact ⟨t.updOp _ _, rfl⟩
        · exact ⟨t.updWith hp hn hs hw ho _, rfl⟩

theorem tw_addRsa {l l' : Lib} (t : LTw x h k l l') {s s' : Session} (u : STw x h k s s') (tm : List Entry) (der : Bytes) :
    RTw x h k (addRsaPrivate e l s tm der) (addRsaPrivate e l' s' tm der) := by
  unfold addRsaPrivate
  rw [tw_newObject u]
  obtain ⟨rv, o⟩ := newObject e s CKK_RSA CKO_PRIVATE_KEY tm
  cases rv <;> try exact ⟨t, rfl⟩
  dsimp only
  cases e.parsePriv der with
  | none => exact ⟨t, rfl⟩
  | some kx =>
    obtain ⟨h1, h2⟩ := tw_addObject (e := e) t u tm { o with data := .rsa kx }
    exact ⟨h1, by dsimp only; rw [h2]⟩

theorem tw_unwrap {l l' : Lib} (t : LTw x h k l l') (hp : l.PopA) (hn : (handles l.sessions).Nodup) {s s' : Session} (hs : s ∈ l.sessions)
    (u : STw x h k s s') (m : Option (Mech × MechParam)) {wk : Nat} (hw : ¬ (s.handle = h ∧ wk = k)) (d : Option Bytes) (tm : Option (List Entry))
    (ptr : Bool) : RTw x h k (cUnwrap e l s m wk d tm ptr) (cUnwrap e l' s' m wk d tm ptr) := by
  unfold cUnwrap
  rw [u.use]
  split
  · exact ⟨t, rfl⟩
  rcases m with _ | ⟨m, p⟩
  · exact ⟨t, rfl⟩
  rcases d with _ | d
  · exact ⟨t, rfl⟩
  rcases tm with _ | tm
  · exact ⟨t, rfl⟩
  dsimp only
  rw [t.findOther u hw, u.op, u.handle]
  split
  · exact ⟨t, rfl⟩
  cases ho : Verif.findObj l s wk with
  | none => exact ⟨t, rfl⟩
  | some w =>
    dsimp only
    split
    · exact ⟨t, rfl⟩
    split
    · exact ⟨t, rfl⟩
    split
    · exact ⟨t, rfl⟩
    split
    · exact ⟨t.updOp _ _, rfl⟩
    have t2 := t.updWith hp hn hs hw ho (decrypt e.crypto (decryptInit s.op w m p).1 (some w) (some d) (.buf 0) 0).1
    split
    · exact ⟨t2, rfl⟩
    · exact tw_addRsa t2 u ..

theorem tw_derive {l l' : Lib} (t : LTw x h k l l') {s s' : Session} (u : STw x h k s s') (m : Option DeriveMech) {i : Nat} (hi : ¬ (s.handle = h ∧ i = k))
    (tm : Option (List Entry)) (ptr : Bool) : RTw x h k (cDerive e l s m i tm ptr) (cDerive e l' s' m i tm ptr) := by
  unfold cDerive
  rcases m with _ | m
  · exact ⟨t, rfl⟩
  rcases tm with _ | tm
  · exact ⟨t, rfl⟩
  dsimp only
  rw [t.findOther u hi, tw_createObject u]
  split
  · exact ⟨t, rfl⟩
  cases Verif.findObj l s i with
  | none => exact ⟨t, rfl⟩
  | some b =>
    dsimp only
    cases deriveSecret e b m with
    | error rv => exact ⟨t, rfl⟩
    | ok sec =>
      dsimp only
      obtain ⟨rv, o⟩ := createObject e s tm
      cases rv <;> try exact ⟨t, rfl⟩
      dsimp only
      cases (deriveTail e.key o sec).obj with
      | none => exact ⟨t, rfl⟩
      | some o => exact tw_addObject t u ..

/-! ## PINs, login and the token -/

/-- A call whose outcome does not depend on the sessions. -/
theorem LTw.resp {l l' : Lib} (t : LTw x h k l l') {α : Type} (f : Lib → Lib × α)
    (hf : ∀ (m : Lib) (ss : List Session), f { m with sessions := ss } = ({ (f m).1 with sessions := ss }, (f m).2)) :
    LTw x h k (f l).1 (f l').1 ∧ (f l').2 = (f l).2 := by
  refine ⟨t.lift (fun m => (f m).1) fun m ss => by rw [hf], ?_⟩
  rw [t.eq, hf]

theorem soPin_sessions (m : Lib) (ss : List Session) (pin : Bytes) :
    setSoPin e { m with sessions := ss } pin = ({ (setSoPin e m pin).1 with sessions := ss }, (setSoPin e m pin).2) := rfl

theorem userPin_sessions (m : Lib) (ss : List Session) (pin : Bytes) :
    setUserPin e { m with sessions := ss } pin = ({ (setUserPin e m pin).1 with sessions := ss }, (setUserPin e m pin).2) := rfl

theorem tw_setSo {l l' : Lib} (t : LTw x h k l l') (pin : Bytes) : RTw x h k (pinSet (setSoPin e l pin)) (pinSet (setSoPin e l' pin)) := by
  have := t.resp (fun m => setSoPin e m pin) fun m ss => soPin_sessions m ss pin
  exact ⟨this.1, by unfold pinSet; dsimp only; rw [this.2]⟩

theorem tw_setUser {l l' : Lib} (t : LTw x h k l l') (pin : Bytes) : RTw x h k (pinSet (setUserPin e l pin)) (pinSet (setUserPin e l' pin)) := by
  have := t.resp (fun m => setUserPin e m pin) fun m ss => userPin_sessions m ss pin
  exact ⟨this.1, by unfold pinSet; dsimp only; rw [this.2]⟩

theorem LTw.setToken {l l' : Lib} (t : LTw x h k l l') (tk : Token) : LTw x h k { l with token := tk } { l' with token := tk } :=
  t.lift (fun m => { m with token := tk }) fun _ _ => rfl

theorem tw_initToken {l l' : Lib} (t : LTw x h k l l') (pin label : Option Bytes) : RTw x h k (initToken e l pin label) (initToken e l' pin label) := by
  unfold initToken
  rcases pin with _ | pin
  · exact ⟨t, rfl⟩
  rcases label with _ | label
  · exact ⟨t, rfl⟩
  dsimp only
  rw [tw_anyInUse t.ses, t.token]
  split
  · exact ⟨t, rfl⟩
  split
  · exact ⟨t, rfl⟩
  split
  · exact ⟨t, rfl⟩
  · exact tw_setSo (t.setToken _) pin

theorem tw_state {l l' : Lib} (t : LTw x h k l l') {s s' : Session} (u : STw x h k s s') : sessState l' s' = sessState l s := by
  unfold sessState
  rw [t.token, u.use]

theorem tw_initPin {l l' : Lib} (t : LTw x h k l l') {s s' : Session} (u : STw x h k s s') (pin : Option Bytes) :
    RTw x h k (initPin e l s pin) (initPin e l' s' pin) := by
  unfold initPin
  rcases pin with _ | pin
  · exact ⟨t, rfl⟩
  dsimp only
  rw [tw_state t u]
  split
  · exact ⟨t, rfl⟩
  split
  · exact ⟨t, rfl⟩
  · exact tw_setUser t pin

theorem tw_setPin {l l' : Lib} (t : LTw x h k l l') {s s' : Session} (u : STw x h k s s') (old new : Option Bytes) :
    RTw x h k (setPin e l s old new) (setPin e l' s' old new) := by
  unfold setPin
  rcases old with _ | old
  · exact ⟨t, rfl⟩
  rcases new with _ | new
  · exact ⟨t, rfl⟩
  dsimp only
  rw [tw_state t u, t.token]
  split
  · exact ⟨t, rfl⟩
  split
  · exact ⟨t, rfl⟩
  cases sessState l s with
  | rwSo =>
    dsimp only
    cases checkPin e l.token l.token.so old with
    | ok => exact tw_setSo t new
    | notSet => exact ⟨t, rfl⟩
    | invalid => exact ⟨t, rfl⟩
  | rwUser =>
    dsimp only
    cases checkPin e l.token l.token.user old with
    | ok => exact tw_setUser t new
    | notSet => exact ⟨t, rfl⟩
    | invalid => exact ⟨t, rfl⟩
  | rwPublic =>
    dsimp only
    cases checkPin e l.token l.token.user old with
    | ok => exact tw_setUser t new
    | notSet => exact ⟨t, rfl⟩
    | invalid => exact ⟨t, rfl⟩
  | roUser => exact ⟨t, rfl⟩
  | roPublic => exact ⟨t, rfl⟩

theorem tw_soLogin {l l' : Lib} (t : LTw x h k l l') (pin : Bytes) (now : Int) :
    LTw x h k (soLogin e l pin now).1 (soLogin e l' pin now).1 ∧ (soLogin e l' pin now).2 = (soLogin e l pin now).2 := by
  unfold soLogin
  rw [t.token]
  have hro : l'.sessions.any (fun s => s.use == .ro) = l.sessions.any fun s => s.use == .ro := t.ses.any fun a b hab => by rw [hab.use]
  split
  · exact ⟨t, rfl⟩
  cases lockCheck l.token.so now with
  | none => exact ⟨t, rfl⟩
  | some a =>
    dsimp only
    rw [hro]
    split
    · exact ⟨t.setToken _, rfl⟩
    cases checkPin e { l.token with so := a } a pin with
    | ok => exact ⟨t.setToken _, rfl⟩
    | notSet => exact ⟨t.setToken _, rfl⟩
    | invalid => exact ⟨t.setToken _, rfl⟩

theorem tw_userLogin {l l' : Lib} (t : LTw x h k l l') (pin : Bytes) (now : Int) :
    LTw x h k (userLogin e l pin now).1 (userLogin e l' pin now).1 ∧ (userLogin e l' pin now).2 = (userLogin e l pin now).2 := by
  unfold userLogin
  rw [t.token]
  split
  · exact ⟨t, rfl⟩
  cases lockCheck l.token.user now with
  | none => exact ⟨t, rfl⟩
  | some a =>
    dsimp only
    cases checkPin e l.token a pin with
    | notSet => exact ⟨t.setToken _, rfl⟩
    | invalid => exact ⟨t.setToken _, rfl⟩
    | ok =>
      dsimp only
      cases (decodeAll e.store (e.store.hash pin l.token.seed) l.token.objs).1 <;> exact ⟨t.setToken _, rfl⟩

theorem tw_login {l l' : Lib} (t : LTw x h k l l') (u : UserType) (pin : Option Bytes) (now : Int) :
    RTw x h k (login e l u pin now) (login e l' u pin now) := by
  unfold login
  rcases pin with _ | pin
  · exact ⟨t, rfl⟩
  dsimp only
  split
  · exact ⟨t, rfl⟩
  cases u with
  | so => exact ⟨(tw_soLogin t pin now).1, by dsimp only; rw [(tw_soLogin t pin now).2]⟩
  | user => exact ⟨(tw_userLogin t pin now).1, by dsimp only; rw [(tw_userLogin t pin now).2]⟩
  | contextSpecific => exact ⟨t, rfl⟩
  | other => exact ⟨t, rfl⟩

theorem tw_random {l l' : Lib} (t : LTw x h k l l') (ptr : Bool) (n : Nat) : RTw x h k (cRandom e l ptr n) (cRandom e l' ptr n) := by
  unfold cRandom
  rw [t.rng]
  split
  · exact ⟨t, rfl⟩
  split
  · exact ⟨t, rfl⟩
  · exact ⟨t.lift (fun m => { m with rng := l.rng + 1 }) fun _ _ => rfl, rfl⟩

/-! ## The machine -/

theorem tw_sess {l l' : Lib} (t : LTw e.key h k l l') (hp : l.PopA) (hn : (handles l.sessions).Nodup) {s s' : Session} (hs : s ∈ l.sessions)
    (u : STw e.key h k s s') (c : SessCall) (hc : ¬ Employs h k (.sess s.handle c)) :
    RTw e.key h k (sessCall e l s c) (sessCall e l' s' c) := by
  cases c with
  | close => show RTw e.key h k (closeSession e l s.handle) (closeSession e l' s'.handle); rw [u.handle]; exact tw_close t _
  | info ptr =>
    unfold sessCall
    dsimp only
    rw [tw_state t u, u.use]
    split <;> exact ⟨t, rfl⟩
  | login w pin now => exact tw_login t w pin now
  | logout => exact ⟨t.logout, rfl⟩
  | initPin pin => exact tw_initPin t u pin
  | setPin old new => exact tw_setPin t u old new
  | create tm ptr => exact tw_create t u tm ptr
  | copy o tm ptr => exact tw_copy t u o tm ptr
  | destroy o => exact tw_destroy t u o
  | size o ptr =>
    unfold sessCall
    dsimp only
    split
    · exact ⟨t, rfl⟩
    · refine ⟨t, ?_⟩
      rcases t.findObj u o with ⟨h1, h2⟩ | ⟨a, b, h1, h2, _⟩
      · dsimp only; rw [h1, h2]
      · dsimp only; rw [h1, h2]; rfl
  | getAttr o tm => exact tw_getAttr t u o tm
  | setAttr o tm => exact tw_setAttr t hp hn hs u hc tm
  | findInit tm => exact tw_findInit t u tm
  | findNext ptr n => exact tw_findNext t u ptr n
  | findFinal =>
    refine ⟨?_, rfl⟩
    show LTw e.key h k (l.upd s.handle _) (l'.upd s'.handle _)
    rw [u.handle]
    exact t.upd _ _ _ fun _ _ _ _ u => u.objsEq (fun v => { v with find := { v.find with active := false } }) (fun _ _ => rfl) rfl rfl
  | cryptInit kd m key => exact tw_cryptInit t hp hn hs u kd m hc
  | crypt c => exact tw_crypt t u c
  | genKey m tm ptr => exact tw_genKey t u m tm ptr
  | genPair m tp tq ptrs => exact tw_genPair t u m tp tq ptrs
  | wrap m wk key ob => exact tw_wrap t hp hn hs u m (fun hw => hc ⟨hw.1, .inl hw.2⟩) (fun hw => hc ⟨hw.1, .inr hw.2⟩) ob
  | unwrap m wk d tm ptr => exact tw_unwrap t hp hn hs u m hc d tm ptr
  | derive m base tm ptr => exact tw_derive t u m hc tm ptr
  | random ptr n => exact tw_random t ptr n

theorem tw_slot {l l' : Lib} (t : LTw x h k l l') (c : SlotCall) : RTw x h k (slotCall e l c) (slotCall e l' c) := by
  cases c with
  | tokenInfo ptr now =>
    unfold slotCall tokenInfo
    dsimp only
    rw [t.token]
    split <;> exact ⟨t, rfl⟩
  | initToken pin label => exact tw_initToken t pin label
  | openSession w serial ptr =>
    unfold slotCall
    dsimp only
    split
    · exact ⟨t, rfl⟩
    split
    · exact ⟨t, rfl⟩
    · exact tw_open t w
  | closeAll =>
    refine ⟨⟨?_, tw_closeAll t.ses⟩, rfl⟩
    show ({ l' with sessions := closeAll l'.sessions } : Lib) = { l with sessions := closeAll l'.sessions }
    conv => lhs; rw [t.eq]

theorem tw_initialize {l l' : Lib} (t : LTw x h k l l') : RTw x h k (cInitialize e l) (cInitialize e l') := by
  unfold cInitialize
  rw [t.count, t.disk, t.uid]
  refine ⟨?_, rfl⟩
  dsimp only
  split
  · rw [t.eq]
    exact .refl _
  · exact t.lift (fun m => { m with count := m.count + 1 }) fun _ _ => rfl

theorem tw_finalize {l l' : Lib} (t : LTw x h k l l') : RTw x h k (cFinalize e l) (cFinalize e l') := by
  unfold cFinalize
  refine ⟨?_, rfl⟩
  dsimp only
  rw [t.count]
  split
  · rw [t.eq]
    exact .refl _
  · have := t.lift (fun m => { m with count := l.count - 1 }) fun _ _ => rfl
    exact this

theorem tw_body {l l' : Lib} (t : LTw e.key h k l l') (hp : l.PopA) (hn : SInv l) (c : Call) (hc : ¬ Employs h k c) :
    RTw e.key h k (callBody e l c) (callBody e l' c) := by
  cases c with
  | cInit => exact tw_initialize t
  | cFinal => exact tw_finalize t
  | slot id c =>
    unfold callBody
    dsimp only
    rw [t.count]
    split
    · exact ⟨t, rfl⟩
    split
    · exact ⟨t, rfl⟩
    · exact tw_slot t c
  | sess j c =>
    unfold callBody
    dsimp only
    rw [t.count]
    split
    · exact ⟨t, rfl⟩
    rcases t.getSession j with ⟨h1, h2⟩ | ⟨s, s', h1, h2, u⟩
    · rw [h1, h2]; exact ⟨t, rfl⟩
    · rw [h1, h2]
      have hs := (getSession_iff hn).mp h1
      obtain ⟨hm, hh, _⟩ := hs
      subst hh
      exact tw_sess t hp hn.nodup hm u c hc

theorem tw_step {l l' : Lib} (t : LTw e.key h k l l') (hp : l.PopA) (hn : SInv l) (c : Call) (hc : ¬ Employs h k c) :
    RTw e.key h k (step e l c) (step e l' c) := by
  unfold step
  rw [t.bad]
  split
  · exact ⟨t, rfl⟩
  have := tw_body t hp hn c hc
  dsimp only
  rw [this.2]
  split
  · exact ⟨this.1.lift (fun m => { m with bad := true }) fun _ _ => rfl, rfl⟩
  · exact ⟨this.1, this.2⟩

end Verif
