import Verif.Proofs.Program
/-
Programs with several problems: the invariant of programs without `copy.copy` of a problem.
-/
namespace HP
open Spec
namespace Program

/-- the objects fit together, every object belongs to one problem, and every problem is as in `Proofs/Machine.lean` -/
structure Inv (A : Arith) (m : Program) : Prop where
  heap : ∀ p, (m.world p).Heap
  wf : ∀ p, p < m.np → (m.world p).WF
  its : ∀ p, p < m.np → m.owner (m.probs p).its = p
  cont : ∀ p, p < m.np → m.owner (m.probs p).cont = p
  owner : ∀ r, r < m.ns → m.owner r < m.np
  downer : ∀ n, n < m.nd → m.downer n < m.np
  refs : ∀ r, r < m.ns → ∀ e ∈ (m.structs r).entries, m.downer e.2 = m.owner r
  good : ∀ p, p < m.np → Good A (m.view p)
  sref : ∀ p, p < m.np → (m.probs p).sref < m.nset

/-- the `Dimensions` objects of problem `p`, and all that do not exist yet -/
def D (m : Program) (p n : Nat) : Prop := n < m.nd → m.downer n = p
/-- the structure objects of problem `p`, and all that do not exist yet -/
def S (m : Program) (p r : Nat) : Prop := r < m.ns → m.owner r = p

theorem Inv.region {A : Arith} {m : Program} (h : Inv A m) (p : Nat) : (m.world p).Region (m.D p) (m.S p) := by
  refine ⟨?_, ?_, ?_⟩
  · intro n hn hlt
    exact absurd hlt (Nat.not_lt.2 hn)
  · intro r hr hlt
    exact absurd hlt (Nat.not_lt.2 hr)
  · intro r hr hS e he _
    rw [h.refs r hr e he]
    exact hS hr

theorem world_put (m : Program) (p : Nat) (w : World) : (m.put p w).world p = w := by
  cases w
  simp [world, put, settings]

theorem settings_put (m : Program) {p q : Nat} (hq : q ≠ p) (w : World) : (m.put p w).settings q =
    if (m.probs q).sref = (m.probs p).sref then w.inst.settings else m.settings q := by
  simp [put, settings, hq]

theorem Inst.setSettings_good {A : Arith} {i : Inst} (h : Good A i) (v : PyVal) : Good A { i with settings := v } :=
  step_good h (.editSettings v)

/-- content of a structure object of another problem -/
theorem content_other {A : Arith} {m : Program} (h : Inv A m) {p r : Nat} (hr : r < m.ns) (hp : m.owner r ≠ p)
    {w' : World} (hL : (m.world p).Local (m.D p) (m.S p) w') (q : Nat) : w'.content r = (m.world q).content r := by
  have h1 : w'.structs r = m.structs r := hL.structs r fun hS => hp (hS hr)
  unfold World.content World.entries
  rw [h1]
  apply List.map_congr_left
  intro e he
  have hb := ((h.heap p).bound r hr e he).1
  have : w'.dims e.2 = m.dims e.2 := hL.dims _ fun hD => hp (by rw [← h.refs r hr e he]; exact hD hb)
  rw [this]
  rfl

/-- another problem sees at most a change of its settings -/
theorem view_put_other {A : Arith} {m : Program} (h : Inv A m) {p q : Nat} (hq : q < m.np) (hqp : q ≠ p) {w' : World}
    (hL : (m.world p).Local (m.D p) (m.S p) w') : (m.put p w').view q =
    { m.view q with
      settings := if (m.probs q).sref = (m.probs p).sref then w'.inst.settings else m.settings q } := by
  have hw := h.wf q hq
  have e1 := content_other h (r := (m.probs q).its) hw.its (by rw [h.its q hq]; exact hqp) hL q
  have e2 := content_other h (r := (m.probs q).cont) hw.cont (by rw [h.cont q hq]; exact hqp) hL q
  have hp : (m.put p w').probs q = m.probs q := by simp [put, hqp]
  unfold view World.view
  have hs := settings_put m hqp w'
  show ({ ((m.put p w').world q).inst with
      containers := w'.content ((m.put p w').probs q).cont
      items := w'.content ((m.put p w').probs q).its } : Inst) = _
  rw [hp, e1, e2]
  unfold world
  rw [hs, hp]

theorem view_put (m : Program) (p : Nat) (w : World) : (m.put p w).view p = w.view := by
  unfold view
  rw [world_put]

/-- what a method of problem `p` does keeps the invariant -/
theorem Inv.put {A : Arith} {m : Program} (h : Inv A m) {p : Nat} (hp : p < m.np) {w' : World}
    (hL : (m.world p).Local (m.D p) (m.S p) w') (hw : w'.WF) (hg : Good A w'.view) : Inv A (m.put p w') := by
  have own : ∀ r, (m.put p w').owner r = p ↔ m.S p r := by
    intro r
    show (if r < m.ns then m.owner r else p) = p ↔ _
    unfold S
    by_cases hr : r < m.ns
    · simp [hr]
    · simp [hr]
  have down : ∀ n, (m.put p w').downer n = p ↔ m.D p n := by
    intro n
    show (if n < m.nd then m.downer n else p) = p ↔ _
    unfold D
    by_cases hr : n < m.nd
    · simp [hr]
    · simp [hr]
  have hns : m.ns ≤ w'.ns := hL.ns
  have hnd : m.nd ≤ w'.nd := hL.nd
  have hheap : ∀ q, ((m.put p w').world q).Heap := fun q =>
    ⟨hw.keys, hw.refs, hw.ne, hw.bound, hw.pos⟩
  have other : ∀ q, q ≠ p → (m.put p w').probs q = m.probs q := fun q hq => by simp [Program.put, hq]
  refine ⟨hheap, ?_, ?_, ?_, ?_, ?_, ?_, ?_, ?_⟩
  · intro q hq
    by_cases hqp : q = p
    · rw [hqp, world_put]; exact hw
    · have hwq := h.wf q hq
      have s1 : w'.structs (m.probs q).its = m.structs (m.probs q).its :=
        hL.structs _ fun hS => hqp (by rw [← h.its q hq]; exact hS hwq.its)
      have s2 : w'.structs (m.probs q).cont = m.structs (m.probs q).cont :=
        hL.structs _ fun hS => hqp (by rw [← h.cont q hq]; exact hS hwq.cont)
      refine ⟨hheap q, ?_, ?_, ?_, ?_⟩
      · show ((m.put p w').probs q).its < w'.ns
        rw [other q hqp]
        exact Nat.lt_of_lt_of_le hwq.its hns
      · show (w'.structs ((m.put p w').probs q).its).kind = _
        rw [other q hqp, s1]
        exact hwq.itsKind
      · show ((m.put p w').probs q).cont < w'.ns
        rw [other q hqp]
        exact Nat.lt_of_lt_of_le hwq.cont hns
      · show (w'.structs ((m.put p w').probs q).cont).kind = _
        rw [other q hqp, s2]
        exact hwq.contKind
  · intro q hq
    by_cases hqp : q = p
    · subst hqp
      rw [own]
      have : ((m.put q w').probs q).its = w'.its := by simp [Program.put]
      rw [this]
      exact hL.its fun _ => h.its q hq
    · rw [other q hqp]
      show (if (m.probs q).its < m.ns then m.owner (m.probs q).its else p) = q
      rw [if_pos (show (m.probs q).its < m.ns from (h.wf q hq).its)]
      exact h.its q hq
  · intro q hq
    by_cases hqp : q = p
    · subst hqp
      rw [own]
      have : ((m.put q w').probs q).cont = w'.cont := by simp [Program.put]
      rw [this]
      exact hL.cont fun _ => h.cont q hq
    · rw [other q hqp]
      show (if (m.probs q).cont < m.ns then m.owner (m.probs q).cont else p) = q
      rw [if_pos (show (m.probs q).cont < m.ns from (h.wf q hq).cont)]
      exact h.cont q hq
  · intro r _
    show (if r < m.ns then m.owner r else p) < m.np
    split
    · exact h.owner r ‹_›
    · exact hp
  · intro r _
    show (if r < m.nd then m.downer r else p) < m.np
    split
    · exact h.downer r ‹_›
    · exact hp
  · intro r hr e he
    by_cases hS : m.S p r
    · rw [(own r).2 hS, down]
      exact hL.refs (h.region p).refs r hr hS e he
    · have hlt : r < m.ns := by
        by_contra hn
        exact hS fun hlt => absurd hlt hn
      have e1 : w'.structs r = m.structs r := hL.structs r hS
      have he' : e ∈ (m.structs r).entries := by rw [← e1]; exact he
      have hb : e.2 < m.nd := ((h.heap p).bound r hlt e he').1
      show (if e.2 < m.nd then m.downer e.2 else p) = (if r < m.ns then m.owner r else p)
      rw [if_pos hlt, if_pos hb]
      exact h.refs r hlt e he'
  · intro q hq
    by_cases hqp : q = p
    · rw [hqp, view_put]; exact hg
    · rw [view_put_other h hq hqp hL]
      exact Inst.setSettings_good (h.good q hq) _
  · intro q hq
    show (((m.put p w').probs q).sref) < m.nset
    by_cases hqp : q = p
    · subst hqp
      have : ((m.put q w').probs q).sref = (m.probs q).sref := by simp [Program.put]
      rw [this]
      exact h.sref q hq
    · rw [other q hqp]
      exact h.sref q hq

/-! ### calls on a problem -/

/-- the program afterwards, if problem `p` sees `w'` -/
def Acts (m : Program) (p : Nat) (w' : World) (m' : Program) : Prop := m' = m.put p w' ∨ (m' = m ∧ w' = m.world p)

theorem Acts.world {m m' : Program} {p : Nat} {w' : World} (h : Acts m p w' m') : m'.world p = w' := by
  rcases h with rfl | ⟨rfl, rfl⟩
  · exact world_put m p w'
  · rfl

theorem put_put {m : Program} {p : Nat} {w1 w2 : World} (h1 : m.ns ≤ w1.ns) (h2 : m.nd ≤ w1.nd) :
    (m.put p w1).put p w2 = m.put p w2 := by
  unfold put
  simp only [Program.mk.injEq, true_and, if_true]
  refine ⟨?_, ?_, ?_, ?_, trivial⟩
  · funext r
    by_cases h : r < m.ns
    · simp [h, Nat.lt_of_lt_of_le h h1]
    · simp [h]
  · funext r
    by_cases h : r < m.nd
    · simp [h, Nat.lt_of_lt_of_le h h2]
    · simp [h]
  · funext q
    by_cases h : q = p <;> simp [h]
  · funext s
    by_cases h : s = (m.probs p).sref <;> simp [h]

theorem Acts.trans {m m1 m2 : Program} {p : Nat} {w1 w2 : World} (h : Acts m p w1 m1) (h1 : m.ns ≤ w1.ns)
    (h2 : m.nd ≤ w1.nd) (h' : Acts m1 p w2 m2) : Acts m p w2 m2 := by
  rcases h with rfl | ⟨rfl, rfl⟩
  · rcases h' with rfl | ⟨rfl, rfl⟩
    · exact .inl (put_put h1 h2)
    · rw [world_put]
      exact .inl rfl
  · exact h'

theorem Inv.acts {A : Arith} {m m' : Program} (h : Inv A m) {p : Nat} (hp : p < m.np) {w' : World}
    (ha : Acts m p w' m') (hL : (m.world p).Local (m.D p) (m.S p) w') (hw : w'.WF) (hg : Good A w'.view) : Inv A m' := by
  rcases ha with rfl | ⟨rfl, rfl⟩
  · exact h.put hp hL hw hg
  · exact h

theorem Acts.other {A : Arith} {m m' : Program} (h : Inv A m) {p q : Nat} (hq : q < m.np) (hqp : q ≠ p) {w' : World}
    (ha : Acts m p w' m') (hL : (m.world p).Local (m.D p) (m.S p) w') : m'.view q =
    { m.view q with
      settings := if (m.probs q).sref = (m.probs p).sref then w'.inst.settings else m.settings q } := by
  rcases ha with rfl | ⟨rfl, rfl⟩
  · exact view_put_other h hq hqp hL
  · have : (if (m'.probs q).sref = (m'.probs p).sref then (m'.world p).inst.settings else m'.settings q) = m'.settings q := by
      split
      · rename_i e
        show m'.sets (m'.probs p).sref = m'.sets (m'.probs q).sref
        rw [e]
      · rfl
    rw [this]
    rfl

/-- a call with the same effect and outcome as `x` on problem `p` -/
def CallAs (m : Program) (p : Nat) (r : Program × Outcome) (x : World × Outcome) : Prop :=
  Acts m p x.1 r.1 ∧ r.2 = x.2

theorem onStruct_as {A : Arith} {m : Program} (h : Inv A m) {p : Nat} (hp : p < m.np) (k : SKind) (f : SMeth) :
    CallAs m p (m.onStruct ((m.world p).ptr k) f) ((m.world p).onStruct ((m.world p).ptr k) f) := by
  have : m.owner ((m.world p).ptr k) = p := by
    cases k
    · exact h.cont p hp
    · exact h.its p hp
  unfold Program.onStruct
  rw [this]
  exact ⟨.inl rfl, rfl⟩

theorem onEntry_as {A : Arith} {m : Program} (h : Inv A m) {p : Nat} (hp : p < m.np) (k : SKind) (id : PyVal) (f : DMeth)
    (g : Nat → World → World × Except PyErr Unit) (hg : ∀ r w, World.onDims w r f = World.outcome (g r w)) :
    CallAs m p (m.onEntry p k id f) ((m.world p).onEntry k id g) := by
  unfold Program.onEntry World.onEntry
  cases hl : lookupKey ((m.world p).entries ((m.world p).ptr k)) id with
  | error e => exact ⟨.inr ⟨rfl, rfl⟩, rfl⟩
  | ok x =>
    obtain ⟨s, r⟩ := x
    simp only
    have hm := PyDict.find?_mem (lookupKey_find hl)
    have hd : m.downer r = p := by
      have := h.refs _ ((h.wf p hp).ptr k).1 _ hm
      rw [show m.downer r = m.owner ((m.world p).ptr k) from this]
      cases k
      · exact h.cont p hp
      · exact h.its p hp
    unfold Program.onDims
    rw [hd, ← hg r]
    exact ⟨.inl rfl, rfl⟩

theorem orient_as {A : Arith} {m : Program} (h : Inv A m) {p : Nat} (hp : p < m.np) (o : PyVal) :
    CallAs m p (m.orient p o) (World.outcome ((m.world p).orientItems o)) := by
  have loop : ∀ turn, CallAs m p (m.orientWith p turn) (World.outcome
      ((m.world p).orientLoop turn (PyDict.keys ((m.world p).entries (m.world p).its)))) := by
    intro turn
    unfold orientWith
    simp only [h.its p hp]
    have e : { m.world p with its := (m.probs p).its } = m.world p := rfl
    rw [e]
    have hi := ((World.orientLoop_sim turn (PyDict.keys ((m.world p).entries (m.world p).its)) (h.wf p hp)).2).its
    have e2 : (m.world p).its = (m.probs p).its := rfl
    simp only [e2] at hi ⊢
    generalize World.orientLoop turn (PyDict.keys ((m.world p).entries (m.probs p).its)) (m.world p) = x at hi ⊢
    obtain ⟨⟨_, _, _, _, its, _, _⟩, _⟩ := x
    refine ⟨.inl ?_, rfl⟩
    have hi' : its = (m.probs p).its := hi
    rw [hi']
    rfl
  unfold orient World.orientItems
  rw [show (m.world p).inst.rotation = (m.probs p).inst.rotation from rfl]
  split
  · exact ⟨.inr ⟨rfl, rfl⟩, rfl⟩
  · split
    · exact ⟨.inr ⟨rfl, rfl⟩, rfl⟩
    · split
      · exact loop _
      · split
        · exact loop _
        · exact ⟨.inr ⟨rfl, rfl⟩, rfl⟩

theorem Inv.local {A : Arith} {m : Program} (h : Inv A m) {p : Nat} (hp : p < m.np) (o : Op) :
    (m.world p).Local (m.D p) (m.S p) ((m.world p).call A o).1 :=
  World.call_local (h.region p) (h.wf p hp) (fun _ => h.its p hp) (fun _ => h.cont p hp) o

theorem own_as (A : Arith) (m : Program) (p : Nat) (o : Op) : CallAs m p (m.own A p o) ((m.world p).call A o) :=
  ⟨.inl rfl, rfl⟩

theorem Inv.call {A : Arith} {m m' : Program} (h : Inv A m) {p : Nat} (hp : p < m.np) {o : Op}
    (ha : Acts m p ((m.world p).call A o).1 m') : Inv A m' := by
  have hw := h.wf p hp
  have hg := h.good p hp
  have hv : (m.world p).view.Valid := hg.valid
  refine h.acts hp ha (h.local hp o) (World.call_wf hw hv o) ?_
  rw [(World.call_sim hw hv o).2]
  exact step_good hg o

theorem hypersearch_as {A : Arith} {m : Program} (h : Inv A m) {p : Nat} (hp : p < m.np) (a : HSArgs) :
    CallAs m p (m.hypersearch A p a) ((m.world p).hypersearch A a) := by
  unfold Program.hypersearch World.hypersearch
  have h1 := own_as A m p (.sortItems a.sortingBy)
  have i1 := h.call hp h1.1
  have l1 := h.local (A := A) hp (.sortItems a.sortingBy)
  have e : (m.world p).call A (.sortItems a.sortingBy) = World.outcome ((m.world p).sortItems A a.sortingBy) := rfl
  rw [e] at h1 l1
  generalize (m.world p).sortItems A a.sortingBy = x at h1 l1
  generalize m.own A p (.sortItems a.sortingBy) = r at h1 i1
  obtain ⟨w1, x⟩ := x
  obtain ⟨m1, r⟩ := r
  obtain ⟨a1, e1⟩ := h1
  simp only [World.outcome] at a1 e1 l1
  subst e1
  cases x with
  | error e => exact ⟨a1, rfl⟩
  | ok u =>
    simp only [Outcome.of]
    have hnp : m1.np = m.np := by
      rcases a1 with rfl | ⟨rfl, _⟩ <;> rfl
    have h2 := orient_as i1 (by rw [hnp]; exact hp) (p := p) a.orientation
    have l2 := i1.local (A := A) (p := p) (by rw [hnp]; exact hp) (.orientItems a.orientation)
    have e' : (m1.world p).call A (.orientItems a.orientation) = World.outcome ((m1.world p).orientItems a.orientation) := rfl
    rw [e'] at l2
    rw [a1.world] at h2 l2
    generalize w1.orientItems a.orientation = x at h2 l2
    generalize m1.orient p a.orientation = r at h2
    obtain ⟨w2, x⟩ := x
    obtain ⟨m2, r⟩ := r
    obtain ⟨a2, e2⟩ := h2
    simp only [World.outcome] at a2 e2 l2
    subst e2
    have a3 := a1.trans l1.ns l1.nd a2
    have l3 := l2.ns
    have l3' := l2.nd
    cases x with
    | error e => exact ⟨a3, rfl⟩
    | ok u =>
      simp only [Outcome.of]
      have hns : m.ns ≤ w2.ns := Nat.le_trans l1.ns l3
      have hnd : m.nd ≤ w2.nd := Nat.le_trans l1.nd l3'
      rw [a2.world]
      exact ⟨a3.trans hns hnd (.inl rfl), rfl⟩

/-- a call on problem `p` does what the operation does to problem `p` -/
theorem call_as {A : Arith} {m : Program} (h : Inv A m) {p : Nat} (hp : p < m.np) (o : Op)
    (ho : ∀ E v, o ≠ .settings E v) : CallAs m p (m.call A p o) ((m.world p).call A o) := by
  cases o with
  | setKey k id v => exact onStruct_as h hp k (.setItem id v)
  | delKey k key => exact onStruct_as h hp k (.delItem key)
  | popKey k key d => exact onStruct_as h hp k (.pop key d)
  | popItem k => exact onStruct_as h hp k .popitem
  | clear k => exact onStruct_as h hp k .clear
  | update k es => exact onStruct_as h hp k (.update es)
  | setDefault k key v => exact onStruct_as h hp k (.setdefault key v)
  | setDim k id key v => exact onEntry_as h hp k id (.setItem key v) _ fun r w => rfl
  | delDim k id => exact onEntry_as h hp k id .delItem _ fun r w => rfl
  | updateDim k id es => exact onEntry_as h hp k id (.update es) _ fun r w => rfl
  | orientItems o => exact orient_as h hp o
  | hypersearch a => exact hypersearch_as h hp a
  | settings E v => exact absurd rfl (ho E v)
  | assign k v => exact own_as A m p _
  | sortItems s => exact own_as A m p _
  | delAttr e => exact own_as A m p _
  | height v => exact own_as A m p _
  | minHeight v => exact own_as A m p _
  | resetHeight => exact own_as A m p _
  | strategy v => exact own_as A m p _
  | editSettings v => exact own_as A m p _
  | validate E => exact own_as A m p _
  | solve seq => exact own_as A m p _
  | localSearch c t => exact own_as A m p _
  | log => exact own_as A m p _
  | figure w s => exact own_as A m p _

/-! ### the settings dicts -/

/-- only settings dicts, and which problem has which, differ -/
structure Dicts (m m' : Program) : Prop where
  dims : m'.dims = m.dims
  nd : m'.nd = m.nd
  structs : m'.structs = m.structs
  ns : m'.ns = m.ns
  owner : m'.owner = m.owner
  downer : m'.downer = m.downer
  np : m'.np = m.np
  probs : ∀ q, (m'.probs q).its = (m.probs q).its ∧ (m'.probs q).cont = (m.probs q).cont ∧
    (m'.probs q).inst = (m.probs q).inst

theorem Dicts.world {m m' : Program} (h : Dicts m m') (q : Nat) : m'.world q =
    { m.world q with inst := { (m.world q).inst with settings := m'.settings q } } := by
  obtain ⟨p1, p2, p3⟩ := h.probs q
  unfold Program.world
  rw [h.dims, h.nd, h.structs, h.ns, p1, p2, p3]

theorem Dicts.view {m m' : Program} (h : Dicts m m') (q : Nat) : m'.view q =
    { m.view q with settings := m'.settings q } := by
  unfold Program.view
  rw [h.world]
  rfl

theorem Inv.dicts {A : Arith} {m m' : Program} (h : Inv A m) (hd : Dicts m m')
    (hs : ∀ p, p < m.np → (m'.probs p).sref < m'.nset) : Inv A m' := by
  have hsame : ∀ p, World.SameHeap (m.world p) (m'.world p) := by
    intro p
    rw [hd.world]
    exact ⟨rfl, rfl, rfl, rfl, rfl, rfl⟩
  refine ⟨?_, ?_, ?_, ?_, ?_, ?_, ?_, ?_, ?_⟩
  · intro p
    have := h.heap p
    rw [hd.world]
    exact ⟨this.keys, this.refs, this.ne, this.bound, this.pos⟩
  · intro p hp
    rw [hd.np] at hp
    exact (hsame p).wf (h.wf p hp)
  · intro p hp
    rw [hd.np] at hp
    rw [(hd.probs p).1, hd.owner]; exact h.its p hp
  · intro p hp
    rw [hd.np] at hp
    rw [(hd.probs p).2.1, hd.owner]; exact h.cont p hp
  · rw [hd.ns, hd.owner, hd.np]; exact h.owner
  · rw [hd.nd, hd.downer, hd.np]; exact h.downer
  · rw [hd.ns, hd.owner, hd.downer, hd.structs]; exact h.refs
  · intro p hp
    rw [hd.np] at hp
    rw [hd.view]
    exact Inst.setSettings_good (h.good p hp) _
  · intro p hp
    rw [hd.np] at hp
    exact hs p hp

theorem newDict_dicts (m : Program) (p : Nat) (v : PyVal) : Dicts m (m.newDict p v) := by
  refine ⟨rfl, rfl, rfl, rfl, rfl, rfl, rfl, ?_⟩
  intro q
  unfold newDict
  by_cases h : q = p <;> simp [h]

theorem sameDict_dicts (m : Program) (p q : Nat) : Dicts m (m.sameDict p q) := by
  refine ⟨rfl, rfl, rfl, rfl, rfl, rfl, rfl, ?_⟩
  intro s
  unfold sameDict
  by_cases h : s = p <;> simp [h]

theorem newDict_settings {A : Arith} {m : Program} (h : Inv A m) {p q : Nat} (hq : q < m.np) (v : PyVal) :
    (m.newDict p v).settings q = if q = p then v else m.settings q := by
  unfold settings newDict
  by_cases hqp : q = p
  · simp [hqp]
  · have := h.sref q hq
    simp [hqp, Nat.ne_of_lt this]

theorem sameDict_settings (m : Program) (p q s : Nat) :
    (m.sameDict p q).settings s = if s = p then m.settings q else m.settings s := by
  unfold settings sameDict
  by_cases h : s = p <;> simp [h]

theorem Inv.newDict {A : Arith} {m : Program} (h : Inv A m) (p : Nat) (v : PyVal) : Inv A (m.newDict p v) := by
  refine h.dicts (newDict_dicts m p v) ?_
  intro q hq
  show ((m.newDict p v).probs q).sref < m.nset + 1
  have := h.sref q hq
  unfold Program.newDict
  by_cases hqp : q = p
  · simp [hqp]
  · simp only [if_neg hqp]; omega

theorem Inv.sameDict {A : Arith} {m : Program} (h : Inv A m) (p : Nat) {q : Nat} (hq : q < m.np) :
    Inv A (m.sameDict p q) := by
  refine h.dicts (sameDict_dicts m p q) ?_
  intro s hs
  show ((m.sameDict p q).probs s).sref < m.nset
  unfold Program.sameDict
  by_cases hqp : s = p
  · simp only [if_pos hqp]; exact h.sref q hq
  · simp only [if_neg hqp]; exact h.sref s hs

/-- a dict is changed in place -/
def setDict (m : Program) (s : Nat) (v : PyVal) : Program :=
  { m with sets := fun t => if t = s then v else m.sets t }

theorem setDict_dicts (m : Program) (s : Nat) (v : PyVal) : Dicts m (m.setDict s v) :=
  ⟨rfl, rfl, rfl, rfl, rfl, rfl, rfl, fun _ => ⟨rfl, rfl, rfl⟩⟩

theorem Inv.setDict {A : Arith} {m : Program} (h : Inv A m) (s : Nat) (v : PyVal) : Inv A (m.setDict s v) :=
  h.dicts (setDict_dicts m s v) h.sref

theorem Inv.addDict {A : Arith} {m : Program} (h : Inv A m) (v : PyVal) : Inv A (m.addDict v) :=
  h.dicts ⟨rfl, rfl, rfl, rfl, rfl, rfl, rfl, fun _ => ⟨rfl, rfl, rfl⟩⟩ fun p hp => Nat.lt_succ_of_lt (h.sref p hp)

theorem addDict_view {A : Arith} {m : Program} (h : Inv A m) (v : PyVal) {q : Nat} (hq : q < m.np) :
    (m.addDict v).view q = m.view q := by
  have hd : Dicts m (m.addDict v) := ⟨rfl, rfl, rfl, rfl, rfl, rfl, rfl, fun _ => ⟨rfl, rfl, rfl⟩⟩
  rw [hd.view]
  have : (m.addDict v).settings q = m.settings q := by
    unfold settings addDict
    simp [Nat.ne_of_lt (h.sref q hq)]
  rw [this]
  rfl

/-! ### new problems -/

theorem Inv.add {A : Arith} {m : Program} (h : Inv A m) {i : Inst} (hg : Good A i) {s : Nat} (hs : s < m.nset)
    (hi : i.settings = m.sets s) :
    Inv A (m.add i s) ∧ (m.add i s).view m.np = i ∧ ∀ q, q < m.np → (m.add i s).view q = m.view q := by
  have hv := hg.valid
  have h0 : World.Heap ⟨m.dims, m.nd, m.structs, m.ns, 0, 0, i⟩ := by
    have := h.heap 0
    exact ⟨this.keys, this.refs, this.ne, this.bound, this.pos⟩
  obtain ⟨b1, b2, b3, b4, b5, b6, b7, b8, b9, b10, b11⟩ := World.build_spec h0 .containers hv.conts hv.contsNe
  obtain ⟨c1, c2, c3, c4, c5, c6, c7, c8, c9, c10, c11⟩ := World.build_spec b1 .items hv.items hv.itemsNe
  have hR : World.Region (m.D m.np) (m.S m.np) ⟨m.dims, m.nd, m.structs, m.ns, 0, 0, i⟩ := by
    have := h.region m.np
    exact ⟨this.nd, this.ns, this.refs⟩
  have hL0 := World.build_local hR .containers i.containers
  have hL := hL0.trans (World.build_local (hL0.region hR) .items i.items)
  have hw : ∀ q, (m.add i s).world q = { (World.build .containers i.containers
      ⟨m.dims, m.nd, m.structs, m.ns, 0, 0, i⟩).build .items i.items with
      its := ((m.add i s).probs q).its
      cont := ((m.add i s).probs q).cont
      inst := { ((m.add i s).probs q).inst with settings := (m.add i s).settings q } } := fun q => rfl
  generalize hw0 : (World.build .containers i.containers ⟨m.dims, m.nd, m.structs, m.ns, 0, 0, i⟩) = w0 at *
  generalize hw1 : w0.build .items i.items = w1 at *
  simp only at b2 b3 b4 b5 b6 b7 b8 b9 b10 b11
  rw [b5] at c2 c3 c4 c5 c9
  have ens : (m.add i s).ns = w1.ns := by unfold Program.add; simp only [hw0, hw1]
  have end_ : (m.add i s).nd = w1.nd := by unfold Program.add; simp only [hw0, hw1]
  have est : (m.add i s).structs = w1.structs := by unfold Program.add; simp only [hw0, hw1]
  have edm : (m.add i s).dims = w1.dims := by unfold Program.add; simp only [hw0, hw1]
  have pnew : (m.add i s).probs m.np = ⟨m.ns + 1, m.ns, s, i⟩ := by simp [Program.add]
  have pold : ∀ q, q < m.np → (m.add i s).probs q = m.probs q := by
    intro q hq
    simp [Program.add, Nat.ne_of_lt hq]
  have hst : ∀ r, r < m.ns → w1.structs r = m.structs r := by
    intro r hr
    rw [c9 r (Nat.lt_succ_of_lt hr), b9 r hr]
  have hct : ∀ r, r < m.ns → ∀ q, w1.content r = (m.world q).content r := by
    intro r hr q
    rw [c3 r (Nat.lt_succ_of_lt hr), b3 r hr]
    rfl
  have hnew : (m.add i s).view m.np = i := by
    unfold Program.view World.view
    rw [hw, pnew]
    show ({ i with
              settings := (m.add i s).settings m.np
              containers := w1.content m.ns
              items := w1.content (m.ns + 1) } : Inst) = i
    rw [c2, c3 _ (Nat.lt_succ_self _), b2]
    have : (m.add i s).settings m.np = i.settings := by
      unfold settings
      rw [pnew, hi]
      rfl
    rw [this]
  have hold : ∀ q, q < m.np → (m.add i s).view q = m.view q := by
    intro q hq
    have hwq := h.wf q hq
    unfold Program.view World.view
    rw [hw, pold q hq]
    show ({ (m.probs q).inst with
              settings := (m.add i s).settings q
              containers := w1.content (m.probs q).cont
              items := w1.content (m.probs q).its } : Inst) = _
    rw [hct (m.probs q).its hwq.its q, hct (m.probs q).cont hwq.cont q]
    have : (m.add i s).settings q = m.settings q := by
      unfold settings
      rw [pold q hq]
      rfl
    rw [this]
    rfl
  have hheap : ∀ q, ((m.add i s).world q).Heap := by
    intro q
    rw [hw]
    exact ⟨c1.keys, c1.refs, c1.ne, c1.bound, c1.pos⟩
  have lt : ∀ q, q < (m.add i s).np → q < m.np ∨ q = m.np := by
    intro q hq
    have : q < m.np + 1 := hq
    omega
  refine ⟨⟨hheap, ?_, ?_, ?_, ?_, ?_, ?_, ?_, ?_⟩, hnew, hold⟩
  · intro q hq
    rcases lt q hq with hq | rfl
    · have hwq := h.wf q hq
      refine ⟨hheap q, ?_, ?_, ?_, ?_⟩
      · show ((m.add i s).probs q).its < (m.add i s).ns
        rw [pold q hq, ens, c5]
        have : (m.probs q).its < m.ns := hwq.its
        omega
      · show ((m.add i s).structs ((m.add i s).probs q).its).kind = _
        rw [pold q hq, est, hst (m.probs q).its hwq.its]; exact hwq.itsKind
      · show ((m.add i s).probs q).cont < (m.add i s).ns
        rw [pold q hq, ens, c5]
        have : (m.probs q).cont < m.ns := hwq.cont
        omega
      · show ((m.add i s).structs ((m.add i s).probs q).cont).kind = _
        rw [pold q hq, est, hst (m.probs q).cont hwq.cont]; exact hwq.contKind
    · refine ⟨hheap m.np, ?_, ?_, ?_, ?_⟩
      · show ((m.add i s).probs m.np).its < (m.add i s).ns
        rw [pnew, ens, c5]; exact Nat.lt_succ_self _
      · show ((m.add i s).structs ((m.add i s).probs m.np).its).kind = _
        rw [pnew, est]; exact c4
      · show ((m.add i s).probs m.np).cont < (m.add i s).ns
        rw [pnew, ens, c5]; show m.ns < m.ns + 1 + 1; omega
      · show ((m.add i s).structs ((m.add i s).probs m.np).cont).kind = _
        rw [pnew, est, c9 _ (Nat.lt_succ_self _)]; exact b4
  · intro q hq
    rcases lt q hq with hq | rfl
    · rw [pold q hq]
      show (if (m.probs q).its < m.ns then m.owner (m.probs q).its else m.np) = q
      rw [if_pos (show (m.probs q).its < m.ns from (h.wf q hq).its)]
      exact h.its q hq
    · rw [pnew]
      exact if_neg (Nat.not_lt.2 (Nat.le_succ _))
  · intro q hq
    rcases lt q hq with hq | rfl
    · rw [pold q hq]
      show (if (m.probs q).cont < m.ns then m.owner (m.probs q).cont else m.np) = q
      rw [if_pos (show (m.probs q).cont < m.ns from (h.wf q hq).cont)]
      exact h.cont q hq
    · rw [pnew]
      exact if_neg (Nat.lt_irrefl _)
  · intro r _
    show (if r < m.ns then m.owner r else m.np) < m.np + 1
    split
    · exact Nat.lt_succ_of_lt (h.owner r ‹_›)
    · exact Nat.lt_succ_self _
  · intro r _
    show (if r < m.nd then m.downer r else m.np) < m.np + 1
    split
    · exact Nat.lt_succ_of_lt (h.downer r ‹_›)
    · exact Nat.lt_succ_self _
  · intro r hr e he
    rw [est] at he
    rw [ens] at hr
    show (if e.2 < m.nd then m.downer e.2 else m.np) = (if r < m.ns then m.owner r else m.np)
    by_cases hlt : r < m.ns
    · have he' : e ∈ (m.structs r).entries := by rw [← hst r hlt]; exact he
      have hb : e.2 < m.nd := ((h.heap 0).bound r hlt e he').1
      rw [if_pos hlt, if_pos hb]
      exact h.refs r hlt e he'
    · rw [if_neg hlt]
      have := hL.refs hR.refs r hr (fun hh => absurd hh hlt) e he
      by_cases hb : e.2 < m.nd
      · rw [if_pos hb]; exact this hb
      · rw [if_neg hb]
  · intro q hq
    rcases lt q hq with hq | rfl
    · rw [hold q hq]; exact h.good q hq
    · rw [hnew]; exact hg
  · intro q hq
    show ((m.add i s).probs q).sref < m.nset
    rcases lt q hq with hq | rfl
    · rw [pold q hq]; exact h.sref q hq
    · rw [pnew]; exact hs

end Program
end HP
