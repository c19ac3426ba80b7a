import Verif.Proofs.ObjectsReach
import Verif.Props.Items
import Verif.Props.Structures
/-
Property theorems C72 - C75: `Items`, `Containers` and `Dimensions` objects that the user keeps
(or copies), Model/Objects.lean.

`w.ptr k` is the object that `problem.items` / `problem.containers` is now, `w.view` the problem
with its current contents, `w.step A o` one operation and its outcome.  `WReach A w`: `w` can be
reached from a constructed problem by any operations on the problem and on any objects got from
it.  `step` is the model of the operations through the problem, Model/Machine.lean.
-/
namespace HP
open Spec

/-! ### C72: `Items` and `Containers` objects -/

/-- operations that may put another object in the place of `problem.items` / `problem.containers`:
an assignment, and for the items sorting, also inside `hypersearch` -/
def WOp.replaces (k : SKind) : WOp → Bool
  | .call (.assign k' _) => k' = k
  | .call (.sortItems (some _)) => k = .items
  | .call (.hypersearch h) => h.sortingBy.isSome && k = .items
  | _ => false

theorem World.MaybeEdit.ptr' {r : Nat} {w w' : World} (h : World.MaybeEdit r w w') (k : SKind) :
    w'.ptr k = w.ptr k := h.ptr k

theorem World.SizesOnly.ptr {w w' : World} (h : World.SizesOnly w w') (k : SKind) : w'.ptr k = w.ptr k := by
  cases k
  · exact h.cont
  · exact h.its

theorem World.onEntry_ptr {w : World} (hw : w.WF) (k : SKind) (id : PyVal)
    (f : Nat → World → World × Except PyErr Unit) (k' : SKind)
    (hf : ∀ r, r < w.nd → (f r w).1.ptr k' = w.ptr k') : (w.onEntry k id f).1.ptr k' = w.ptr k' := by
  unfold World.onEntry
  split
  · rfl
  · rename_i s r h
    exact hf r (hw.bound _ (hw.ptr k).1 _ (PyDict.find?_mem (lookupKey_find h))).1

theorem World.copyDim_ptr (w : World) (r : Nat) (k : SKind) : (w.copyDim r).1.ptr k = w.ptr k := by
  unfold World.copyDim
  split <;> cases k <;> rfl

theorem World.hypersearch_ptr {A : Arith} {w : World} (hw : w.WF) (h : HSArgs) (k : SKind)
    (hk : h.sortingBy = none ∨ k = .containers) : (w.hypersearch A h).1.ptr k = w.ptr k := by
  have wf1 := World.sortItems_wf hw A h.sortingBy
  have p1 : (w.sortItems A h.sortingBy).1.ptr k = w.ptr k := by
    rcases hk with hn | hk
    · rw [hn]; rfl
    · unfold World.sortItems
      split
      · rfl
      · split
        · rfl
        · exact (World.assign_objects hw .items _).2.2.1 k (by rw [hk]; decide)
  unfold World.hypersearch
  split
  · rename_i w1 e heq; rw [heq] at p1; exact p1
  · rename_i w1 heq
    rw [heq] at p1 wf1
    have so := (World.orientItems_sim wf1 h.orientation).2.ptr k
    split
    · rename_i w2 e heq2; rw [heq2] at so; exact so.trans p1
    · rename_i w2 heq2
      rw [heq2] at so
      exact Eq.trans (by cases k <;> rfl) (so.trans p1)

/-- C72: no other operation replaces the object: it is still the problem's own. -/
theorem C72_kept (A : Arith) (w : World) (h : WReach A w) (k : SKind) (o : WOp) (he : o.Exists w)
    (ho : o.replaces k = false) : (w.step A o).1.ptr k = w.ptr k := by
  have hw := h.good.1
  cases o with
  | onStruct r m => exact (World.onStruct_maybe hw he m).ptr k
  | onDims r m =>
    by_cases hm : m = .copy
    · subst hm; exact w.copyDim_ptr r k
    · exact (World.onDims_maybe hw he m hm).ptr k
  | copyStruct r => cases k <;> rfl
  | copyDims r => cases k <;> rfl
  | call o =>
    cases o with
    | assign k' v =>
      have : k' ≠ k := by simpa [WOp.replaces] using ho
      exact (World.assign_objects hw k' v).2.2.1 k (Ne.symm this)
    | setKey k' id v => exact (World.setKey_maybe hw (hw.ptr k').1 id v).ptr k
    | delKey k' key => exact (World.delKey_maybe hw (hw.ptr k').1 key).ptr k
    | setDim k' id key v =>
      exact World.onEntry_ptr hw k' id _ k fun r hr => (World.setDim_maybe hw hr key v).ptr k
    | delDim k' id => exact World.onEntry_ptr hw k' id _ k fun r hr => rfl
    | popKey k' key d => exact (World.popKey_maybe hw (hw.ptr k').1 key d).ptr k
    | popItem k' => exact (World.popItem_maybe hw (hw.ptr k').1).ptr k
    | clear k' => exact (World.clearLoop_maybe _ _ hw (hw.ptr k').1).ptr k
    | update k' es => exact (World.update_maybe _ es hw (hw.ptr k').1).ptr k
    | updateDim k' id es =>
      exact World.onEntry_ptr hw k' id _ k fun r hr => (World.updateDim_maybe r es hw hr).ptr k
    | setDefault k' key v => exact (World.setDefault_maybe hw (hw.ptr k').1 key v).ptr k
    | sortItems s =>
      cases s with
      | none => cases k <;> rfl
      | some c =>
        have hk : k ≠ .items := by simpa [WOp.replaces] using ho
        show (World.sortItems A (some c) w).1.ptr k = _
        unfold World.sortItems
        split
        · rfl
        · split
          · rfl
          · exact (World.assign_objects hw .items _).2.2.1 k hk
    | orientItems o => exact (World.orientItems_sim hw o).2.ptr k
    | hypersearch h =>
      refine World.hypersearch_ptr hw h k ?_
      cases hs : h.sortingBy with
      | none => exact .inl rfl
      | some c =>
        right
        have : k ≠ .items := by simpa [WOp.replaces, hs] using ho
        cases k with
        | containers => rfl
        | items => exact absurd rfl this
    | delAttr e => cases k <;> rfl
    | height v => cases k <;> rfl
    | minHeight v => cases k <;> rfl
    | resetHeight => cases k <;> rfl
    | strategy v => cases k <;> rfl
    | settings E v => cases k <;> rfl
    | editSettings v => cases k <;> rfl
    | validate E => cases k <;> rfl
    | solve seq => cases k <;> rfl
    | localSearch c t => cases k <;> rfl
    | log => cases k <;> rfl
    | figure w s => cases k <;> rfl

/-- a history without an operation that may replace the object of kind `k` -/
inductive WRun (A : Arith) (k : SKind) (w : World) : World → Prop where
  | refl : WRun A k w w
  | step {w' : World} (o : WOp) : WRun A k w w' → o.Exists w' → o.replaces k = false →
      WRun A k w (w'.step A o).1

theorem WRun.reach {A : Arith} {k : SKind} {w w' : World} (hr : WReach A w) (h : WRun A k w w') :
    WReach A w' := by
  induction h with
  | refl => exact hr
  | step o _ he _ ih => exact .step o ih he

theorem WRun.ptr {A : Arith} {k : SKind} {w w' : World} (hr : WReach A w) (h : WRun A k w w') :
    w'.ptr k = w.ptr k := by
  induction h with
  | refl => rfl
  | step o hr' he hn ih => rw [C72_kept A _ (hr'.reach hr) k o he hn, ih]

/-- C72: an object got from `problem.items` / `problem.containers` stays connected during any
history without an assignment to that attribute and (for the items) without sorting: its methods
do to the problem what the operations on `problem.items` / `problem.containers` do. -/
theorem C72_connected (A : Arith) (w w' : World) (h : WReach A w) (k : SKind) (hr : WRun A k w w')
    (m : SMeth) (o : Op) (ho : m.op k = some o) :
    (w'.step A (.onStruct (w.ptr k) m)).1.view = (step A w'.view o).1 ∧
    (w'.step A (.onStruct (w.ptr k) m)).2 = (step A w'.view o).2 := by
  have hg := (hr.reach h).good
  rw [← hr.ptr h]
  show (w'.onStruct (w'.ptr k) m).1.view = _ ∧ (w'.onStruct (w'.ptr k) m).2 = _
  rw [World.onStruct_current (A := A) w' k m o ho]
  exact ⟨(World.call_sim hg.1 hg.2.valid o).2, (World.call_sim hg.1 hg.2.valid o).1⟩

/-- C72: an accepted assignment to the attribute makes a new object, so every object got before is
disconnected. -/
theorem C72_assign (A : Arith) (w : World) (h : WReach A w) (k : SKind) (v : PyVal)
    (hok : (w.step A (.call (.assign k v))).2 = .ok) (r : Nat) (hr : r < w.ns) :
    (w.step A (.call (.assign k v))).1.ptr k ≠ r := by
  have hok' : (w.assign k v).2 = .ok () := by
    have : Outcome.of (w.assign k v).2 = .ok := hok
    cases hx : (w.assign k v).2 with
    | ok u => rfl
    | error e => rw [hx] at this; cases this
  have := (World.assign_objects h.good.1 k v).2.2.2.1 hok'
  show (w.assign k v).1.ptr k ≠ r
  omega

theorem World.sortItems_ptr {A : Arith} {w : World} (hw : w.WF) (hv : w.view.Valid) (name : String)
    (key : Dim → Rat) (hk : criterion A.quot name = some key) (reverse : Bool) :
    (w.sortItems A (some (.str name, reverse))).1.ptr .items = w.ns ∧
    (w.sortItems A (some (.str name, reverse))).2 = .ok () ∧
    w.ns < (w.sortItems A (some (.str name, reverse))).1.ns := by
  obtain ⟨s, h1, _⟩ := sorted_of_valid A w.view hv name key hk reverse
  have hsim := (World.sortItems_sim hw A (some (.str name, reverse))).1
  have h2 : (w.view.sortItems A (some (.str name, reverse))).2 = .ok () := by
    have : (outcomeOf (w.view.sortItems A (some (.str name, reverse)))).2 = .ok := by
      show (HP.step A w.view (.sortItems (some (.str name, reverse)))).2 = .ok
      rw [h1]
    exact outcome_ok.1 this
  rw [h2] at hsim
  have hkey : sortKey? A (.str name) = some key := (sortKey_iff A _ _).2 ⟨name, rfl, hk⟩
  have hwf := World.sortItems_wf hw A (some (.str name, reverse))
  have hp : (w.sortItems A (some (.str name, reverse))).1.ptr .items = w.ns := by
    unfold World.sortItems at hsim ⊢
    simp only [hkey] at hsim ⊢
    exact (World.assign_objects hw .items _).2.2.2.1 hsim
  refine ⟨hp, hsim, ?_⟩
  have := (hwf.ptr .items).1
  rw [hp] at this
  exact this

/-- C72: `sort_items` with one of the three criteria disconnects every `Items` object got before. -/
theorem C72_sort (A : Arith) (w : World) (h : WReach A w) (name : String) (key : Dim → Rat)
    (hk : criterion A.quot name = some key) (reverse : Bool) (r : Nat) (hr : r < w.ns) :
    (w.step A (.call (.sortItems (some (.str name, reverse))))).1.its ≠ r := by
  have := (World.sortItems_ptr h.good.1 h.good.2.valid name key hk reverse).1
  show (w.sortItems A (some (.str name, reverse))).1.its ≠ r
  have h2 : (w.sortItems A (some (.str name, reverse))).1.its = w.ns := this
  omega

/-- C72: so does `hypersearch` with one of the three criteria (by default it sorts by area). -/
theorem C72_hypersearch (A : Arith) (w : World) (h : WReach A w) (a : HSArgs) (name : String) (key : Dim → Rat)
    (hk : criterion A.quot name = some key) (reverse : Bool) (ha : a.sortingBy = some (.str name, reverse))
    (r : Nat) (hr : r < w.ns) : (w.step A (.call (.hypersearch a))).1.its ≠ r := by
  obtain ⟨hw, hg⟩ := h.good
  obtain ⟨p1, p2, p3⟩ := World.sortItems_ptr hw hg.valid name key hk reverse
  have wf1 := World.sortItems_wf hw A (some (.str name, reverse))
  show (w.hypersearch A a).1.its ≠ r
  unfold World.hypersearch
  rw [ha]
  split
  · rename_i w1 e heq; rw [heq] at p2; cases p2
  · rename_i w1 heq
    rw [heq] at p1 wf1
    have so := (World.orientItems_sim wf1 a.orientation).2.its
    have p1' : w1.its = w.ns := p1
    split
    · rename_i w2 e heq2
      rw [heq2] at so
      simp only at so
      rw [so]; omega
    · rename_i w2 heq2
      rw [heq2] at so
      simp only at so
      show w2.its ≠ r
      rw [so]; omega

/-- C72: the methods of a disconnected `Items` or `Containers` object never change the problem's
items or containers, nor anything else but that they may discard the solution and, for a
`Containers` object, change the stored number of containers. -/
theorem C72_disconnected (A : Arith) (w : World) (h : WReach A w) (r : Nat) (hr : r < w.ns)
    (h1 : r ≠ w.its) (h2 : r ≠ w.cont) (m : SMeth) :
    (w.step A (.onStruct r m)).1.view = w.view ∨
    ((w.structs r).kind = .items ∧
      (w.step A (.onStruct r m)).1.view = { w.view with solution := [], objVals := [] }) ∨
    ((w.structs r).kind = .containers ∧
      (w.step A (.onStruct r m)).1.view = { w.view with
        solution := [], objVals := [],
        containersNum := ((w.step A (.onStruct r m)).1.content r).length }) := by
  rcases World.onStruct_stale h.good.1 hr h1 h2 m with e | e
  · left; show (w.onStruct r m).1.view = _; rw [e]
  · right
    cases hk : (w.structs r).kind with
    | items =>
      rw [hk] at e
      exact .inl ⟨rfl, e⟩
    | containers =>
      rw [hk] at e
      refine .inr ⟨rfl, ?_⟩
      rw [World.length_content]
      exact e

/-- the objects of `HyperPack(containers, items)`: containers object 0, items object 1, the sizes
0 .. 4 -/
def objects : World := World.ofInst problem

theorem objects_reach (A : Arith) : WReach A objects := .new problem_new

example : objects.view = problem := rfl
example : objects.cont = 0 ∧ objects.its = 1 ∧ objects.entries 0 = [("c1", 0), ("c2", 1)] ∧
    objects.entries 1 = [("a", 2), ("b", 3), ("c", 4)] := by decide +kernel

/-- a size for tests -/
def someSize : PyVal := .dict [(.str "w", .int 1), (.str "l", .int 1)]

/-- C72 on it: the items object is kept while the problem is solved, and deleting an item through it
then deletes it in the problem and discards the solution -/
example : WRun Arith.exact .items objects (objects.step Arith.exact (.call (.solve none))).1 :=
  .step _ .refl trivial rfl
example : (objects.step Arith.exact (.call (.solve none))).1.view.solution = problemSolved.solution := by
  decide +kernel
example : ((objects.step Arith.exact (.call (.solve none))).1.step Arith.exact
      (.onStruct 1 (.delItem (.str "b")))).1.view.items = [("a", ⟨2, 3⟩), ("c", ⟨2, 2⟩)] ∧
    ((objects.step Arith.exact (.call (.solve none))).1.step Arith.exact
      (.onStruct 1 (.delItem (.str "b")))).1.view.solution = [] := by decide +kernel

/-- sorted, then solved: the items object is another one -/
def objectsSorted : World :=
  ((objects.step Arith.exact (.call (.sortItems (some (.str "area", true))))).1.step Arith.exact
    (.call (.solve none))).1

theorem objectsSorted_reach : WReach Arith.exact objectsSorted :=
  .step _ (.step _ (objects_reach _) trivial) trivial

/-- C72 on it: an item added to the old items object is not in the problem, but the solution is
gone -/
example : objectsSorted.its = 2 ∧ objectsSorted.view.solution ≠ [] ∧
    (objectsSorted.step Arith.exact (.onStruct 1 (.setItem (.str "d") someSize))).2 = .ok ∧
    (objectsSorted.step Arith.exact (.onStruct 1 (.setItem (.str "d") someSize))).1.view.items =
      [("a", ⟨2, 3⟩), ("c", ⟨2, 2⟩), ("b", ⟨4, 1⟩)] ∧
    (objectsSorted.step Arith.exact (.onStruct 1 (.setItem (.str "d") someSize))).1.view.solution = [] ∧
    (objectsSorted.step Arith.exact (.onStruct 1 (.setItem (.str "d") someSize))).1.content 1 =
      [("a", ⟨2, 3⟩), ("b", ⟨4, 1⟩), ("c", ⟨2, 2⟩), ("d", ⟨1, 1⟩)] := by decide +kernel

/-! ### C73: `Dimensions` objects -/

/-- C73: the object `problem.items[id]` (or `problem.containers[id]`) is connected as long as it is
the one under the id: its methods do what the operations on `problem.items[id]` do. -/
theorem C73_connected (A : Arith) (w : World) (h : WReach A w) (k : SKind) (id : String) (r : Nat)
    (hr : (id, r) ∈ w.entries (w.ptr k)) (m : DMeth) (o : Op) (ho : m.op k (.str id) = some o) :
    (w.step A (.onDims r m)).1.view = (step A w.view o).1 ∧
    (w.step A (.onDims r m)).2 = (step A w.view o).2 := by
  have hg := h.good
  have hf := PyDict.find?_of_mem (hg.1.keys _ (hg.1.ptr k).1) hr
  show (w.onDims r m).1.view = _ ∧ (w.onDims r m).2 = _
  rw [World.onDims_current (A := A) w k hf m o ho]
  exact ⟨(World.call_sim hg.1 hg.2.valid o).2, (World.call_sim hg.1 hg.2.valid o).1⟩

/-- C73: a size always has both its entries: no method removes one, and the methods that are meant to
do so change nothing at all; `pop` and `setdefault` only ever read. -/
theorem C73_both (A : Arith) (w : World) (r : Nat) :
    (∀ m, m = .delItem ∨ m = .popitem ∨ m = .clear →
      w.step A (.onDims r m) = (w, .raised (.dimensionsError "CANT_DELETE"))) ∧
    (∀ key dflt, (w.step A (.onDims r (.pop key dflt))).1 = w ∧
      ((w.step A (.onDims r (.pop key dflt))).2 = .ok → dflt = true ∧ key ≠ .str (w.dims r).kind.width ∧
        key ≠ .str (w.dims r).kind.length)) ∧
    (∀ key v, (w.step A (.onDims r (.setdefault key v))).1 = w ∧
      ((w.step A (.onDims r (.setdefault key v))).2 = .ok → key = .str (w.dims r).kind.width ∨
        key = .str (w.dims r).kind.length)) := by
  refine ⟨?_, ?_, ?_⟩
  · rintro m (rfl | rfl | rfl) <;> rfl
  · intro key dflt
    refine ⟨rfl, ?_⟩
    show Outcome.of (World.popDim (w.dims r).kind key dflt) = .ok → _
    unfold World.popDim
    split
    · intro h; cases h
    · split
      · intro h; cases h
      · rename_i hn
        simp only [Bool.or_eq_true, not_or, eqStr_iff] at hn
        split
        · intro _; exact ⟨by assumption, hn⟩
        · intro h; cases h
  · intro key v
    refine ⟨World.setDefaultDim_same w r key v, ?_⟩
    show Outcome.of (w.setDefaultDim r key v).2 = .ok → _
    unfold World.setDefaultDim
    split
    · intro h; cases h
    · split
      · rename_i h
        intro _
        simpa only [Bool.or_eq_true, eqStr_iff] using h
      · rename_i h
        simp only [Bool.or_eq_true, not_or, Bool.not_eq_true] at h
        unfold World.setDim
        rw [h.1, h.2]
        simp only [Bool.false_eq_true, if_false]
        split
        · intro h; cases h
        · intro h; cases h

/-- C73: an object that is under no id of the problem any more changes nothing but that its methods
may discard the solution. -/
theorem C73_disconnected (A : Arith) (w : World) (h : WReach A w) (r : Nat) (hr : r < w.nd)
    (h1 : ∀ id, (id, r) ∉ w.entries w.its) (h2 : ∀ id, (id, r) ∉ w.entries w.cont) (m : DMeth) :
    (w.step A (.onDims r m)).1.view = w.view ∨
    (w.step A (.onDims r m)).1.view = { w.view with solution := [], objVals := [] } := by
  by_cases hm : m = .copy
  · subst hm
    exact .inr (World.copyDim_spec h.good.1 hr).2
  · have g1 : ∀ p ∈ w.entries w.its, p.2 ≠ r := by rintro ⟨id, n⟩ hp e; exact h1 id (e ▸ hp)
    have g2 : ∀ p ∈ w.entries w.cont, p.2 ≠ r := by rintro ⟨id, n⟩ hp e; exact h2 id (e ▸ hp)
    rcases World.onDims_stale h.good.1 hr g1 g2 m hm with e | e
    · left; show (w.onDims r m).1.view = _; rw [e]
    · exact .inr e

/-- the operation concerns the entry `id` of the structure object `r` as a whole: it may put another
`Dimensions` object there or remove it -/
def SMeth.touches (id : String) : SMeth → Prop
  | .setItem key _ => key = .str id
  | .delItem key => key = .str id
  | .pop key _ => key = .str id
  | .popitem => True
  | .clear => True
  | .update es => ∃ e ∈ es, e.1 = .str id
  | .setdefault _ _ => False
  | .copy => False

/-- the same for the operations through the problem and through any object -/
def WOp.touches (w : World) (k : SKind) (id : String) : WOp → Prop
  | .call o => ∃ m, m.op k = some o ∧ SMeth.touches id m
  | .onStruct r m => r = w.ptr k ∧ m.touches id
  | _ => False

theorem lookupKey_err_ne {α : Type} {d : PyDict String α} {key : PyVal} {id : String} {x : α}
    (hd : PyDict.find? d id = some x) {e : PyErr} (h : lookupKey d key = .error e) : key ≠ .str id := by
  rintro rfl
  rw [World.lookupKey_str hd] at h
  cases h

theorem find_erase_other {α : Type} (d : PyDict String α) {k k' : String} (h : k' ≠ k) :
    PyDict.find? (PyDict.erase d k) k' = PyDict.find? d k' := by
  induction d with
  | nil => rfl
  | cons p d ih =>
    obtain ⟨a, b⟩ := p
    unfold PyDict.erase
    split
    · rename_i e
      conv_rhs => unfold PyDict.find?
      rw [if_neg (by rw [e]; exact fun h' => h h'.symm)]
    · unfold PyDict.find?
      rw [ih]

theorem asStr_ne {key : PyVal} {s id : String} (hs : key.asStr? = some s) (h : key ≠ .str id) : s ≠ id := by
  rintro rfl
  unfold PyVal.asStr? at hs
  split at hs
  · injection hs with hs
    exact h (by rw [hs])
  · cases hs

theorem entries_resetAttrs (w : World) (r s : Nat) : (w.resetAttrs r).entries s = w.entries s := by
  unfold World.entries
  rw [(World.resetAttrs_same r w).2.2.1]

theorem setKey_entry {w : World} (r : Nat) {key v : PyVal} {id : String} {n : Nat} (hne : key ≠ .str id)
    (h : PyDict.find? (w.entries r) id = some n) :
    PyDict.find? ((w.setKey r key v).1.entries r) id = some n := by
  unfold World.setKey
  split
  · exact h
  · split
    · exact h
    · rename_i s hs
      split
      · exact h
      · show PyDict.find? ((World.resetAttrs r _).entries r) id = _
        rw [entries_resetAttrs, World.entries_setEntries, if_pos rfl,
          PyDict.find?_insert_ne _ _ (Ne.symm (asStr_ne hs hne))]
        exact h

theorem lookupKey_fst {α : Type} {d : PyDict String α} {key : PyVal} {p : String × α}
    (h : lookupKey d key = .ok p) : key.asStr? = some p.1 := by
  unfold lookupKey at h
  split at h
  · rename_i s hs
    split at h
    · injection h with h; rw [← h]; exact hs
    · cases h
  · cases h

theorem delKey_entry {w : World} (r : Nat) {key : PyVal} {id : String} {n : Nat} (hne : key ≠ .str id)
    (h : PyDict.find? (w.entries r) id = some n) :
    PyDict.find? ((w.delKey r key).1.entries r) id = some n := by
  unfold World.delKey
  split
  · exact h
  · split
    · exact h
    · rename_i s hs
      show PyDict.find? ((World.resetAttrs r _).entries r) id = _
      rw [entries_resetAttrs, World.entries_setEntries, if_pos rfl,
        find_erase_other _ (Ne.symm (asStr_ne (lookupKey_fst hs) hne))]
      exact h

theorem update_entry (r : Nat) {id : String} {n : Nat} : ∀ (es : List (PyVal × PyVal)) {w : World},
    (∀ e ∈ es, e.1 ≠ .str id) → PyDict.find? (w.entries r) id = some n →
    PyDict.find? ((w.update r es).1.entries r) id = some n := by
  intro es
  induction es with
  | nil => intro w _ h; exact h
  | cons p es ih =>
    obtain ⟨key, v⟩ := p
    intro w hne h
    have h1 := setKey_entry (v := v) r (hne (key, v) List.mem_cons_self) h
    unfold World.update
    split
    · rename_i w1 heq
      rw [heq] at h1
      exact ih (fun e he => hne e (List.mem_cons_of_mem _ he)) h1
    · rename_i w1 e heq
      rw [heq] at h1
      exact h1

theorem onStruct_entry {w : World} (r : Nat) (m : SMeth) {id : String} {n : Nat} (hm : ¬ m.touches id)
    (h : PyDict.find? (w.entries r) id = some n) :
    PyDict.find? ((w.onStruct r m).1.entries r) id = some n := by
  cases m with
  | setItem key v => exact setKey_entry r hm h
  | delItem key => exact delKey_entry r hm h
  | pop key d =>
    show PyDict.find? ((w.popKey r key d).1.entries r) id = _
    unfold World.popKey
    split
    · exact h
    · exact h
    · exact delKey_entry r hm h
  | popitem => exact absurd trivial hm
  | clear => exact absurd trivial hm
  | update es => exact update_entry r es (fun e he e1 => hm ⟨e, he, e1⟩) h
  | setdefault key v =>
    show PyDict.find? ((w.setDefault r key v).1.entries r) id = _
    unfold World.setDefault
    split
    · exact h
    · rename_i hl
      exact setKey_entry r (lookupKey_err_ne h hl) h
    · exact h
  | copy => exact h

theorem onStruct_other_entry {w : World} (hw : w.WF) {r s : Nat} (hr : r < w.ns) (hs : s ≠ r) (m : SMeth) :
    (w.onStruct r m).1.entries s = w.entries s := by
  rcases World.onStruct_maybe hw hr m with h | h
  · rw [h]
  · exact h.others s hs

theorem assign_entry {w : World} (hw : w.WF) (k : SKind) (v : PyVal) {p : Nat} (hp : p < w.ns) {e : String × Nat}
    (he : e ∈ w.entries p) : e ∈ (w.assign k v).1.entries p := by
  have := (World.assign_objects hw k v).2.1
  unfold World.entries
  rw [this.structs _ hp]
  exact he

theorem sortItems_entry {w : World} (hw : w.WF) (A : Arith) (s : Option (PyVal × Bool)) {p : Nat} (hp : p < w.ns)
    {e : String × Nat} (he : e ∈ w.entries p) : e ∈ (w.sortItems A s).1.entries p := by
  unfold World.sortItems
  split
  · exact he
  · split
    · exact he
    · exact assign_entry hw _ _ hp he

/-- C73: the object stays under its id during every operation that does not replace the structure
and does not assign to that id or remove it (`popitem` and `clear` remove whatever they find):
changing sizes, orienting, solving and searching without sorting keep it. -/
theorem C73_kept (A : Arith) (w : World) (h : WReach A w) (k : SKind) (id : String) (r : Nat)
    (hr : (id, r) ∈ w.entries (w.ptr k)) (o : WOp) (he : o.Exists w) (ho : ¬ o.touches w k id)
    (hk : o.replaces k = false) :
    (id, r) ∈ (w.step A o).1.entries ((w.step A o).1.ptr k) := by
  have hw := h.good.1
  have hf := PyDict.find?_of_mem (hw.keys _ (hw.ptr k).1) hr
  rw [C72_kept A w h k o he hk]
  have same : ∀ {w' : World}, World.SizesOnly w w' → (id, r) ∈ w'.entries (w.ptr k) := by
    intro w' hs
    unfold World.entries
    rw [hs.structs]; exact hr
  have onS : ∀ (k' : SKind) (m : SMeth), (k' = k → ¬ m.touches id) →
      (id, r) ∈ (w.onStruct (w.ptr k') m).1.entries (w.ptr k) := by
    intro k' m hm
    by_cases e : k' = k
    · subst e
      exact PyDict.find?_mem (onStruct_entry _ m (hm rfl) hf)
    · have hne : w.ptr k ≠ w.ptr k' := by
        intro e2
        have h1 := (hw.ptr k).2
        rw [e2, (hw.ptr k').2] at h1
        exact e h1
      rw [onStruct_other_entry hw (hw.ptr k').1 hne]
      exact hr
  cases o with
  | onStruct q m =>
    by_cases e : q = w.ptr k
    · subst e
      exact PyDict.find?_mem (onStruct_entry _ m (fun hm => ho ⟨rfl, hm⟩) hf)
    · show (id, r) ∈ (w.onStruct q m).1.entries (w.ptr k)
      rw [onStruct_other_entry hw he (Ne.symm e)]
      exact hr
  | onDims q m =>
    by_cases hm : m = .copy
    · subst hm
      show (id, r) ∈ (w.copyDim q).1.entries (w.ptr k)
      unfold World.copyDim
      split <;> exact hr
    · exact same (World.onDims_maybe hw he m hm).sizesOnly
  | copyStruct q =>
    show (id, r) ∈ (w.shallowStruct q).entries (w.ptr k)
    unfold World.shallowStruct World.entries
    rw [World.newStruct_old _ _ _ (hw.ptr k).1]
    exact hr
  | copyDims q => exact hr
  | call o =>
    have hS : ∀ (k' : SKind) (m : SMeth), m.op k' = some o → (k' = k → ¬ m.touches id) := by
      intro k' m hm e hm2
      subst e
      exact ho ⟨m, hm, hm2⟩
    cases o with
    | assign k' v =>
      have hne : k' ≠ k := by simpa [WOp.replaces] using hk
      have := (World.assign_objects hw k' v).2.1
      show (id, r) ∈ (w.assign k' v).1.entries (w.ptr k)
      unfold World.entries
      rw [this.structs _ (hw.ptr k).1]
      exact hr
    | setKey k' i v => exact onS k' (.setItem i v) (hS k' _ rfl)
    | delKey k' key => exact onS k' (.delItem key) (hS k' _ rfl)
    | popKey k' key d => exact onS k' (.pop key d) (hS k' _ rfl)
    | popItem k' => exact onS k' .popitem (hS k' _ rfl)
    | clear k' => exact onS k' .clear (hS k' _ rfl)
    | update k' es => exact onS k' (.update es) (hS k' _ rfl)
    | setDefault k' key v => exact onS k' (.setdefault key v) (hS k' _ rfl)
    | setDim k' i key v =>
      show (id, r) ∈ (w.onEntry k' i _).1.entries (w.ptr k)
      unfold World.onEntry
      split
      · exact hr
      · rename_i s q hq
        exact same (World.setDim_maybe hw
          (hw.bound _ (hw.ptr k').1 _ (PyDict.find?_mem (lookupKey_find hq))).1 key v).sizesOnly
    | delDim k' i =>
      show (id, r) ∈ (w.onEntry k' i _).1.entries (w.ptr k)
      unfold World.onEntry
      split <;> exact hr
    | updateDim k' i es =>
      show (id, r) ∈ (w.onEntry k' i _).1.entries (w.ptr k)
      unfold World.onEntry
      split
      · exact hr
      · rename_i s q hq
        exact same (World.updateDim_maybe q es hw
          (hw.bound _ (hw.ptr k').1 _ (PyDict.find?_mem (lookupKey_find hq))).1).sizesOnly
    | sortItems s =>
      cases s with
      | none => exact hr
      | some c =>
        exact sortItems_entry hw A (some c) (hw.ptr k).1 hr
    | orientItems o => exact same (World.orientItems_sim hw o).2
    | hypersearch a =>
      have hs1 : (id, r) ∈ (w.sortItems A a.sortingBy).1.entries (w.ptr k) :=
        sortItems_entry hw A _ (hw.ptr k).1 hr
      have wf1 := World.sortItems_wf hw A a.sortingBy
      show (id, r) ∈ (w.hypersearch A a).1.entries (w.ptr k)
      unfold World.hypersearch
      split
      · rename_i w1 e heq; rw [heq] at hs1; exact hs1
      · rename_i w1 heq
        rw [heq] at hs1 wf1
        have so := (World.orientItems_sim wf1 a.orientation).2.structs
        unfold World.entries at hs1 ⊢
        split
        · rename_i w2 e heq2
          rw [heq2] at so
          simp only at so
          rw [so]; exact hs1
        · rename_i w2 heq2
          rw [heq2] at so
          simp only at so
          show (id, r) ∈ (w2.structs (w.ptr k)).entries
          rw [so]; exact hs1
    | delAttr e => exact hr
    | height v => exact hr
    | minHeight v => exact hr
    | resetHeight => exact hr
    | strategy v => exact hr
    | settings E v => exact hr
    | editSettings v => exact hr
    | validate E => exact hr
    | solve seq => exact hr
    | localSearch c t => exact hr
    | log => exact hr
    | figure w s => exact hr

theorem refs_inj {d : PyDict String Nat} (h : (d.map (·.2)).Nodup) {a b : String} {r : Nat}
    (ha : (a, r) ∈ d) (hb : (b, r) ∈ d) : a = b := by
  have := List.inj_on_of_nodup_map h ha hb rfl
  injection this

/-- C73: an accepted assignment to the id, or its deletion, disconnects the object. -/
theorem C73_replaced (A : Arith) (w : World) (h : WReach A w) (k : SKind) (id : String) (r : Nat)
    (hr : (id, r) ∈ w.entries (w.ptr k)) (o : Op)
    (ho : (∃ v, o = .setKey k (.str id) v) ∨ o = .delKey k (.str id))
    (hok : (w.step A (.call o)).2 = .ok) (id' : String) :
    (id', r) ∉ (w.step A (.call o)).1.entries ((w.step A (.call o)).1.ptr k) := by
  have hw := h.good.1
  have hpk := hw.ptr k
  have hf := PyDict.find?_of_mem (hw.keys _ hpk.1) hr
  have hkept : (w.step A (.call o)).1.ptr k = w.ptr k := by
    refine C72_kept A w h k (.call o) trivial ?_
    rcases ho with ⟨v, rfl⟩ | rfl <;> rfl
  have hwf := (World.step_view (A := A) hw h.good.2.valid (.call o) trivial).1
  have hkeys := hwf.keys _ (hwf.ptr k).1
  rw [hkept] at hkeys ⊢
  intro hmem
  have hfind := PyDict.find?_of_mem hkeys hmem
  rcases ho with ⟨v, rfl⟩ | rfl
  · have e : (w.step A (.call (.setKey k (.str id) v))).1 = (w.setKey (w.ptr k) (.str id) v).1 := rfl
    have hok' : Outcome.of (w.setKey (w.ptr k) (.str id) v).2 = .ok := hok
    rw [e] at hmem hfind
    unfold World.setKey at hok' hmem hfind
    split at hok'
    · cases hok'
    · rename_i hs
      rw [if_neg hs] at hmem hfind
      simp only [PyVal.asStr?] at hok' hmem hfind
      split at hok'
      · cases hok'
      · rename_i d hd
        simp only [hd] at hmem hfind
        rw [entries_resetAttrs, World.entries_setEntries, if_pos rfl] at hmem hfind
        have hlt := (hw.bound _ hpk.1 _ hr).1
        rcases PyDict.mem_insert hmem with e | e
        · injection e with e1 e2
          simp only at hlt
          omega
        · have hid := refs_inj (hw.refs _ hpk.1) e hr
          rw [hid, PyDict.find?_insert_self] at hfind
          injection hfind with hfind
          simp only at hlt
          omega
  · have e : (w.step A (.call (.delKey k (.str id)))).1 = (w.delKey (w.ptr k) (.str id)).1 := rfl
    have hok' : Outcome.of (w.delKey (w.ptr k) (.str id)).2 = .ok := hok
    rw [e] at hmem
    unfold World.delKey at hok' hmem
    split at hok'
    · cases hok'
    · rename_i hl
      rw [if_neg hl] at hmem
      rw [World.lookupKey_str hf] at hmem
      simp only at hmem
      rw [entries_resetAttrs, World.entries_setEntries, if_pos rfl] at hmem
      have hid := refs_inj (hw.refs _ hpk.1) (PyDict.erase_subset _ _ _ hmem) hr
      rw [hid] at hmem
      have : id ∈ PyDict.keys (PyDict.erase (w.entries (w.ptr k)) id) := List.mem_map.2 ⟨_, hmem, rfl⟩
      rw [PyDict.keys_erase] at this
      exact ((hw.keys _ hpk.1).mem_erase_iff.1 this).1 rfl

/-- C73 on the objects: number 2 is the size of item "a"; making it wider makes the item of the
problem wider.  After the items have been sorted it is under no id, and making it wider only
discards the solution. -/
example : ("a", 2) ∈ objects.entries objects.its ∧
    (objects.step Arith.exact (.onDims 2 (.setItem (.str "w") (.int 3)))).1.view.items =
      [("a", ⟨3, 3⟩), ("b", ⟨4, 1⟩), ("c", ⟨2, 2⟩)] := by decide +kernel
example : objectsSorted.entries objectsSorted.its = [("a", 5), ("c", 6), ("b", 7)] ∧
    objectsSorted.entries objectsSorted.cont = [("c1", 0), ("c2", 1)] ∧
    (objectsSorted.step Arith.exact (.onDims 2 (.setItem (.str "w") (.int 3)))).1.view.items =
      objectsSorted.view.items ∧
    (objectsSorted.step Arith.exact (.onDims 2 (.setItem (.str "w") (.int 3)))).1.view.solution = [] := by
  decide +kernel

/-- orienting keeps the objects and turns item "b" in place -/
example : (objects.step Arith.exact (.call (.orientItems (.str "long")))).1.its = 1 ∧
    (objects.step Arith.exact (.call (.orientItems (.str "long")))).1.content 1 =
      [("a", ⟨2, 3⟩), ("b", ⟨1, 4⟩), ("c", ⟨2, 2⟩)] := by decide +kernel

/-! ### C74: reading and copying -/

/-- C74, without `copy()` of a `Dimensions` object: `copy.copy` of any object, `copy()` of an
`Items` or `Containers` object (it raises), `log_solution` and `create_figure` leave the problem as
it is. -/
theorem C74_partial (A : Arith) (w : World) (h : WReach A w) (o : WOp) (he : o.Exists w)
    (ho : (∃ r, o = .copyStruct r) ∨ (∃ r, o = .copyDims r) ∨ (∃ r, o = .onStruct r .copy) ∨
      o = .call .log ∨ ∃ writes show_, o = .call (.figure writes show_)) :
    (w.step A o).1.view = w.view ∧ (w.step A o).1.its = w.its ∧ (w.step A o).1.cont = w.cont := by
  have hw := h.good.1
  rcases ho with ⟨r, rfl⟩ | ⟨r, rfl⟩ | ⟨r, rfl⟩ | rfl | ⟨a, b, rfl⟩
  · exact ⟨(World.shallowStruct_spec hw he).2, rfl, rfl⟩
  · exact ⟨(World.shallowDim_spec hw he).2, rfl, rfl⟩
  · exact ⟨rfl, rfl, rfl⟩
  · exact ⟨(World.call_sim hw h.good.2.valid .log).2, rfl, rfl⟩
  · exact ⟨(World.call_sim hw h.good.2.valid (.figure a b)).2, rfl, rfl⟩

/-- C74: `copy.copy` succeeds and makes a new object with the same contents: for an `Items` or
`Containers` object the same sizes (the `Dimensions` objects are shared), for a `Dimensions` object
the same width and length.  No existing object is changed. -/
theorem C74_shallow (A : Arith) (w : World) (r : Nat) :
    ((w.step A (.copyStruct r)).2 = .ok ∧
      (w.step A (.copyStruct r)).1.ns = w.ns + 1 ∧
      (w.step A (.copyStruct r)).1.entries w.ns = w.entries r ∧
      (w.step A (.copyStruct r)).1.content w.ns = w.content r ∧
      (∀ s, s ≠ w.ns → (w.step A (.copyStruct r)).1.entries s = w.entries s) ∧
      ∀ d, (w.step A (.copyStruct r)).1.dims d = w.dims d) ∧
    ((w.step A (.copyDims r)).2 = .ok ∧
      (w.step A (.copyDims r)).1.nd = w.nd + 1 ∧
      (w.step A (.copyDims r)).1.dims w.nd = w.dims r ∧
      (∀ s, (w.step A (.copyDims r)).1.entries s = w.entries s) ∧
      ∀ d, d ≠ w.nd → (w.step A (.copyDims r)).1.dims d = w.dims d) := by
  have h1 : (w.step A (.copyStruct r)).1.entries w.ns = w.entries r := by
    show (w.shallowStruct r).entries w.ns = _
    simp [World.shallowStruct, World.newStruct, World.entries]
  have h2 : ∀ d, (w.step A (.copyStruct r)).1.dims d = w.dims d := fun d => rfl
  refine ⟨⟨rfl, rfl, h1, ?_, ?_, h2⟩, rfl, rfl, ?_, fun _ => rfl, ?_⟩
  · unfold World.content
    rw [h1]
    rfl
  · intro s hs
    show (w.shallowStruct r).entries s = _
    simp [World.shallowStruct, World.newStruct, World.entries, hs]
  · show (w.shallowDim r).dims w.nd = _
    simp [World.shallowDim, World.newDim]
  · intro d hd
    show (w.shallowDim r).dims d = _
    simp [World.shallowDim, World.newDim, hd]

/-- C74: `copy()` of an `Items` or `Containers` object always raises, and changes nothing. -/
theorem C74_copy_structure (A : Arith) (w : World) (r : Nat) :
    w.step A (.onStruct r .copy) = (w, .raised
      (if (w.structs r).kind = .containers ∧ w.view.strip = true then .containersError "STRIP_PACK_ONLY"
       else .dimensionsError "DIMENSIONS_TYPE")) := by
  show (w, Outcome.raised (w.copyErr r)) = _
  have hs : w.view.strip = w.inst.strip := rfl
  unfold World.copyErr
  rw [hs]
  by_cases h1 : (w.structs r).kind = .containers <;> by_cases h2 : w.inst.strip = true <;> simp [h1, h2]

/-- C74: `copy()` of a `Dimensions` object always discards the solution, and does nothing else to
the problem.  It makes a new object with the same width and length, except for the container of
strip packing, for which it raises. -/
theorem C74_copy (A : Arith) (w : World) (h : WReach A w) (r : Nat) (hr : r < w.nd) :
    (w.step A (.onDims r .copy)).1.view = { w.view with solution := [], objVals := [] } ∧
    (∀ s, (w.step A (.onDims r .copy)).1.entries s = w.entries s) ∧
    (∀ d, d ≠ w.nd → (w.step A (.onDims r .copy)).1.dims d = w.dims d) ∧
    (¬ ((w.dims r).kind = .containers ∧ w.view.strip = true) →
      (w.step A (.onDims r .copy)).2 = .ok ∧
      (w.step A (.onDims r .copy)).1.nd = w.nd + 1 ∧ (w.step A (.onDims r .copy)).1.dims w.nd = w.dims r) ∧
    ((w.dims r).kind = .containers ∧ w.view.strip = true →
      (w.step A (.onDims r .copy)).2 = .raised (.containersError "STRIP_PACK_ONLY")) := by
  refine ⟨(World.copyDim_spec h.good.1 hr).2, ?_⟩
  have hs : w.view.strip = w.inst.strip := rfl
  show (∀ s, (w.copyDim r).1.entries s = _) ∧ (∀ d, d ≠ w.nd → (w.copyDim r).1.dims d = _) ∧
    (_ → Outcome.of (w.copyDim r).2 = _ ∧ (w.copyDim r).1.nd = _ ∧ (w.copyDim r).1.dims w.nd = _) ∧
    (_ → Outcome.of (w.copyDim r).2 = _)
  rw [hs]
  by_cases hc : (w.dims r).kind = .containers ∧ w.inst.strip = true
  · have e : w.copyDim r = (w.resetSol, .error (.containersError "STRIP_PACK_ONLY")) := by
      unfold World.copyDim
      rw [if_pos (by simp [hc.1, hc.2])]
    rw [e]
    exact ⟨fun _ => rfl, fun _ _ => rfl, fun hn => absurd hc hn, fun _ => rfl⟩
  · have e : w.copyDim r = ((w.newDim (w.dims r).kind (w.dims r).val).resetSol, .ok ()) := by
      unfold World.copyDim
      rw [if_neg (by simpa using hc)]
    rw [e]
    refine ⟨fun _ => rfl, ?_, fun _ => ⟨rfl, rfl, ?_⟩, fun hn => absurd hn hc⟩
    · intro d hd
      simp [World.newDim, World.resetSol, hd]
    · simp [World.newDim, World.resetSol]

/-- C74 is false of the code: `problem.items["a"].copy()` discards the solution. -/
theorem C74_refuted : ∃ (w : World) (r : Nat), WReach Arith.exact w ∧ ("a", r) ∈ w.entries w.its ∧
    w.view.solution ≠ [] ∧ (w.step Arith.exact (.onDims r .copy)).2 = .ok ∧
    (w.step Arith.exact (.onDims r .copy)).1.view.solution = [] :=
  ⟨(objects.step Arith.exact (.call (.solve none))).1, 2, .step _ (objects_reach _) trivial,
    by decide +kernel, by decide +kernel, by decide +kernel, by decide +kernel⟩

/-- C74 on the objects: a copied `Items` object shares the sizes: setting the width of item "a"
through it changes the problem's item, but adding an item to it does not add it to the problem -/
example : ((objects.step Arith.exact (.copyStruct 1)).1).entries 2 = [("a", 2), ("b", 3), ("c", 4)] ∧
    ((objects.step Arith.exact (.copyStruct 1)).1.step Arith.exact
      (.onStruct 2 (.setItem (.str "d") someSize))).1.view.items = problem.items := by decide +kernel

/-! ### C75: all histories -/

/-- C75: as long as no `Containers` object but the current one is edited, the problem is always in
a state that can be reached by operations on the problem alone, so that every theorem about those
states (`Reach`) holds whatever objects the user keeps, copies and edits. -/
theorem C75_transparent (A : Arith) (w : World) (h : WReachCur A w) : Reach A w.view := h.view

/-- C75: whatever objects the user keeps, copies and edits, both structures stay non-empty dicts
from different string ids to dicts with the two expected keys and positive integer values. -/
theorem C75_valid (A : Arith) (w : World) (h : WReach A w) :
    (IsSizes "w" "l" (SKind.items.encodeAll w.view.items) w.view.items ∧ (w.view.items.map (·.1)).Nodup) ∧
    (IsSizes "W" "L" (SKind.containers.encodeAll w.view.containers) w.view.containers ∧
      (w.view.containers.map (·.1)).Nodup) :=
  sizes_of_valid h.good.2.valid

/-- C75: and there is never a stale result: it is empty, or its containers are exactly the current
ones and so are those of the objective values, every placed item is a current item, placed once,
with its current size up to rotation, and inside its container. -/
theorem C75_current (A : Arith) (w : World) (h : WReach A w) :
    (w.view.solution = [] ∧ w.view.objVals = []) ∨
    (w.view.solution.map (·.1) = w.view.containers.map (·.1) ∧
     w.view.objVals.map (·.1) = w.view.containers.map (·.1) ∧
     (placedIds w.view.solution).Nodup ∧
     ∀ cid m, (cid, m) ∈ w.view.solution → ∃ c, (cid, c) ∈ w.view.containers ∧
       ∀ id r, (id, r) ∈ m → ∃ d, (id, d) ∈ w.view.items ∧ SizedAs true d r ∧
         r.x + r.w ≤ c.w ∧ (w.view.strip = false → r.y + r.l ≤ c.l)) := by
  rcases h.good.2.sol with hs | hs
  · exact Or.inl hs
  · have hf := hs.facts
    exact Or.inr ⟨hf.keysS, hf.keysO, hs.nodup, hs.placements⟩

/-- C75 on the objects: an old `Containers` object that is edited makes the stored number of
containers wrong, which is why it is excluded in the first theorem -/
example :
    let w := ((objects.step Arith.exact (.call (.assign .containers
      (.dict [(.str "x", .dict [(.str "W", .int 4), (.str "L", .int 4)])])))).1.step Arith.exact
        (.onStruct 0 (.delItem (.str "c1")))).1
    let v := ((objects.step Arith.exact (.call (.assign .containers
      (.dict [(.str "x", .dict [(.str "W", .int 4), (.str "L", .int 4)])])))).1.step Arith.exact
        (.onStruct 0 (.setItem (.str "c3") (.dict [(.str "W", .int 4), (.str "L", .int 4)])))).1
    w.view.containers = [("x", ⟨4, 4⟩)] ∧ w.view.containersNum = 1 ∧
    v.view.containers = [("x", ⟨4, 4⟩)] ∧ v.view.containersNum = 3 := by decide +kernel

/-- a history covered by `C75_transparent`: an `Items` object and a size kept from before sorting are
edited -/
example : WReachCur Arith.exact ((objects.step Arith.exact
    (.call (.sortItems (some (.str "area", true))))).1.step Arith.exact
      (.onStruct 1 (.setItem (.str "d") someSize))).1 :=
  .step _ (.step _ (.new problem_new) trivial (fun h => h))
    (show 1 < _ by decide +kernel)
    (fun h => absurd h.1 (by decide +kernel))

/-! ### C44: the overall objective -/

/-- C44, also with kept objects: as long as no `Containers` object but the current one is edited,
`calculate_obj_value()` is the sum of the utilizations of the current containers, the last one
weighted 0.7 exactly if there are several. -/
theorem C44_objects_partial (A : Arith) (w : World) (h : WReachCur A w) (hsol : w.view.solution ≠ []) :
    w.view.objVals.map (·.1) = w.view.containers.map (·.1) ∧
    (w.view.containers.length = 1 → w.view.calcObj A = .ok (A.sum (w.view.objVals.map (·.2)))) ∧
    (2 ≤ w.view.containers.length → ∃ init last, w.view.objVals.map (·.2) = init ++ [last] ∧
      w.view.calcObj A = .ok (A.add (A.sum init) (A.mul07 last))) :=
  C44_partial A w.view h.view hsol

/-- `HyperPack(containers={"x": 1 x 1}, items={"a": 1 x 1, "b": 1 x 1})` -/
def tiny : Inst := { rawInst false [("x", ⟨1, 1⟩)] [("a", ⟨1, 1⟩), ("b", ⟨1, 1⟩)] none (.dict []) with
  rotation := true, maxTime := 60, workers := .int 1 }

/-- the size 1 x 1 of a container -/
def oneByOne : PyVal := .dict [(.str "W", .int 1), (.str "L", .int 1)]

theorem tiny_reach (A : Arith) : WReach A (World.ofInst tiny) :=
  .new (show mkInst bareEnv (.dict [(.str "x", oneByOne)]) (.dict [(.str "a", someSize), (.str "b", someSize)])
      .none .none = .ok tiny by rfl)

/-- C44 is false of the code in general: the user keeps `old = problem.containers` (one
container), assigns two other containers, and then changes `old`.  Afterwards `solve()` fills
both containers completely, and `calculate_obj_value()` is 2 instead of 1.7. -/
theorem C44_refuted : ∃ (w : World) (old : Nat) (v x : PyVal), WReach Arith.exact w ∧ old = w.cont ∧
    let w1 := (w.step Arith.exact (.call (.assign .containers v))).1
    let w2 := (w1.step Arith.exact (.onStruct old (.setItem (.str "x") x))).1
    let w3 := (w2.step Arith.exact (.call (.solve none))).1
    w3.view.containers = [("y", ⟨1, 1⟩), ("z", ⟨1, 1⟩)] ∧ w3.view.objVals = [("y", 1), ("z", 1)] ∧
    w3.view.calcObj Arith.exact = .ok 2 :=
  ⟨World.ofInst tiny, 0, .dict [(.str "y", oneByOne), (.str "z", oneByOne)], oneByOne, tiny_reach _,
    by decide +kernel, by decide +kernel⟩

end HP
