import Verif.Proofs.Objects
/-
What every operation does to the objects and to the current contents, and the reachable worlds.
-/
namespace HP
open Spec

/-- the operation on `problem.items` / `problem.containers` that calls the method -/
def SMeth.op (k : SKind) : SMeth → Option Op
  | .setItem id v => some (.setKey k id v)
  | .delItem key => some (.delKey k key)
  | .pop key d => some (.popKey k key d)
  | .popitem => some (.popItem k)
  | .clear => some (.clear k)
  | .update es => some (.update k es)
  | .setdefault key v => some (.setDefault k key v)
  | .copy => none

/-- the operation on `problem.items[id]` / `problem.containers[id]` that calls the method -/
def DMeth.op (k : SKind) (id : PyVal) : DMeth → Option Op
  | .setItem key v => some (.setDim k id key v)
  | .delItem => some (.delDim k id)
  | .update es => some (.updateDim k id es)
  | _ => none

namespace World

/-- a method of the current structure object is the operation on the problem -/
theorem onStruct_current {A : Arith} (w : World) (k : SKind) (m : SMeth) (o : Op) (ho : m.op k = some o) :
    w.onStruct (w.ptr k) m = w.call A o := by
  cases m <;> cases ho <;> rfl

theorem onStruct_copy (w : World) (r : Nat) : (w.onStruct r .copy).1 = w := rfl

/-- a method of a current `Dimensions` object is the operation on the problem -/
theorem onDims_current {A : Arith} (w : World) (k : SKind) {s : String} {r : Nat}
    (hs : PyDict.find? (w.entries (w.ptr k)) s = some r) (m : DMeth) (o : Op)
    (ho : m.op k (.str s) = some o) : w.onDims r m = w.call A o := by
  have hl := lookupKey_str hs
  cases m <;> cases ho <;> simp only [World.call, World.onEntry, hl] <;> rfl

/-- a structure object that is not current -/
theorem onStruct_stale {w : World} (hw : w.WF) {r : Nat} (hr : r < w.ns) (h1 : r ≠ w.its) (h2 : r ≠ w.cont)
    (m : SMeth) : (w.onStruct r m).1 = w ∨
      (w.onStruct r m).1.view =
        resetBy (w.structs r).kind ((w.onStruct r m).1.entries r).length w.view := by
  rcases onStruct_maybe hw hr m with h | h
  · exact .inl h
  · exact .inr (h.stale hw h1 h2)

/-- `setdefault` never changes a `Dimensions` object: it has both its entries -/
theorem setDefaultDim_same (w : World) (r : Nat) (key v : PyVal) : (w.setDefaultDim r key v).1 = w := by
  unfold World.setDefaultDim
  split
  · rfl
  · split
    · rfl
    · rename_i h
      simp only [Bool.or_eq_true, not_or, Bool.not_eq_true] at h
      unfold World.setDim
      rw [h.1, h.2]
      simp only [Bool.false_eq_true, if_false]
      split <;> rfl

theorem onDims_maybe {w : World} (hw : w.WF) {r : Nat} (hr : r < w.nd) (m : DMeth) (hm : m ≠ .copy) :
    MaybeDimEdit r w (w.onDims r m).1 := by
  cases m with
  | setItem key v => exact setDim_maybe hw hr key v
  | delItem => exact .inl rfl
  | update es => exact updateDim_maybe r es hw hr
  | copy => exact absurd rfl hm
  | pop key d => exact .inl rfl
  | popitem => exact .inl rfl
  | clear => exact .inl rfl
  | setdefault key v =>
    show MaybeDimEdit r w (w.setDefaultDim r key v).1
    rw [setDefaultDim_same]
    exact .inl rfl

/-- a `Dimensions` object that is in neither of the current structures -/
theorem onDims_stale {w : World} (hw : w.WF) {r : Nat} (hr : r < w.nd)
    (h1 : ∀ p ∈ w.entries w.its, p.2 ≠ r) (h2 : ∀ p ∈ w.entries w.cont, p.2 ≠ r)
    (m : DMeth) (hm : m ≠ .copy) : (w.onDims r m).1 = w ∨ (w.onDims r m).1.view = w.view.resetSol := by
  rcases onDims_maybe hw hr m hm with h | h
  · exact .inl h
  · exact .inr (h.stale h1 h2)

theorem copyDim_spec {w : World} (hw : w.WF) {r : Nat} (hr : r < w.nd) :
    (w.copyDim r).1.WF ∧ (w.copyDim r).1.view = w.view.resetSol := by
  unfold World.copyDim
  split
  · exact ⟨(resetSol_same w).wf hw, rfl⟩
  · refine ⟨(resetSol_same _).wf (hw.newDim _ (hw.pos r hr)), ?_⟩
    show ((w.newDim _ _).resetSol).view = _
    rw [view_resetSol, view_newDim hw]

theorem shallowDim_spec {w : World} (hw : w.WF) {r : Nat} (hr : r < w.nd) :
    (w.shallowDim r).WF ∧ (w.shallowDim r).view = w.view :=
  ⟨hw.newDim _ (hw.pos r hr), view_newDim hw _ _⟩

theorem shallowStruct_spec {w : World} (hw : w.WF) {r : Nat} (hr : r < w.ns) :
    (w.shallowStruct r).WF ∧ (w.shallowStruct r).view = w.view :=
  ⟨hw.newStruct _ (hw.keys r hr) (hw.refs r hr) (hw.ne r hr) (hw.bound r hr), view_newStruct hw _ _⟩

/-- is the `Dimensions` object in a current structure, and under which key -/
theorem held_or_not {w : World} (hw : w.WF) (r : Nat) :
    (∃ k s, PyDict.find? (w.entries (w.ptr k)) s = some r) ∨
    ((∀ p ∈ w.entries w.its, p.2 ≠ r) ∧ (∀ p ∈ w.entries w.cont, p.2 ≠ r)) := by
  by_cases h : ∃ k, ∃ p ∈ w.entries (w.ptr k), p.2 = r
  · obtain ⟨k, ⟨s, n⟩, hp, e⟩ := h
    refine .inl ⟨k, s, ?_⟩
    rw [← e]
    exact PyDict.find?_of_mem (hw.keys _ (hw.ptr k).1) hp
  · right
    constructor
    · intro p hp e; exact h ⟨.items, p, hp, e⟩
    · intro p hp e; exact h ⟨.containers, p, hp, e⟩

/-- what an operation does to the problem as its methods see it: the operation without identities,
nothing, or the discarding of the solution (with a stored number of containers when an old
`Containers` object is edited) -/
theorem step_view {A : Arith} {w : World} (hw : w.WF) (hv : w.view.Valid) (o : WOp) (he : o.Exists w) :
    (w.step A o).1.WF ∧
    ((∃ op, (w.step A o).1.view = (HP.step A w.view op).1 ∧ (w.step A o).2 = (HP.step A w.view op).2) ∨
     (w.step A o).1.view = w.view ∨ (w.step A o).1.view = w.view.resetSol ∨
     (o.EditsOldContainers w ∧ ∃ n, (w.step A o).1.view = { w.view.resetSol with containersNum := n })) := by
  cases o with
  | call o =>
    exact ⟨call_wf hw hv o, .inl ⟨o, (call_sim hw hv o).2, (call_sim hw hv o).1⟩⟩
  | onStruct r m =>
    have hr : r < w.ns := he
    refine ⟨(onStruct_maybe hw hr m).wf hw, ?_⟩
    show (∃ op, (w.onStruct r m).1.view = _ ∧ _) ∨ (w.onStruct r m).1.view = _ ∨ (w.onStruct r m).1.view = _ ∨ _
    have cur : ∀ k, r = w.ptr k → (∃ op, (w.onStruct r m).1.view = (HP.step A w.view op).1 ∧
        (w.onStruct r m).2 = (HP.step A w.view op).2) ∨ (w.onStruct r m).1.view = w.view := by
      intro k hk
      cases ho : m.op k with
      | none => cases m <;> cases ho; exact .inr rfl
      | some o =>
        rw [hk, onStruct_current (A := A) w k m o ho]
        exact .inl ⟨o, (call_sim hw hv o).2, (call_sim hw hv o).1⟩
    by_cases h1 : r = w.its
    · rcases cur .items h1 with h | h
      · exact .inl h
      · exact .inr (.inl h)
    · by_cases h2 : r = w.cont
      · rcases cur .containers h2 with h | h
        · exact .inl h
        · exact .inr (.inl h)
      · rcases onStruct_stale hw hr h1 h2 m with h | h
        · exact .inr (.inl (by rw [h]))
        · cases hk : (w.structs r).kind with
          | items => rw [hk] at h; exact .inr (.inr (.inl h))
          | containers => rw [hk] at h; exact .inr (.inr (.inr ⟨⟨hk, h2⟩, _, h⟩))
  | onDims r m =>
    have hr : r < w.nd := he
    by_cases hm : m = .copy
    · subst hm
      obtain ⟨c1, c2⟩ := copyDim_spec hw hr
      exact ⟨c1, .inr (.inr (.inl c2))⟩
    · refine ⟨(onDims_maybe hw hr m hm).wf hw, ?_⟩
      show (∃ op, (w.onDims r m).1.view = _ ∧ (w.onDims r m).2 = _) ∨ (w.onDims r m).1.view = _ ∨ (w.onDims r m).1.view = _ ∨ _
      rcases held_or_not hw r with ⟨k, s, hs⟩ | ⟨h1, h2⟩
      · cases ho : m.op k (.str s) with
        | none =>
          right; left
          cases m with
          | copy => exact absurd rfl hm
          | setdefault key v => show (w.setDefaultDim r key v).1.view = _; rw [setDefaultDim_same]
          | pop key d => rfl
          | popitem => rfl
          | clear => rfl
          | _ => cases ho
        | some o =>
          rw [onDims_current (A := A) w k hs m o ho]
          exact .inl ⟨o, (call_sim hw hv o).2, (call_sim hw hv o).1⟩
      · rcases onDims_stale hw hr h1 h2 m hm with h | h
        · exact .inr (.inl (by rw [h]))
        · exact .inr (.inr (.inl h))
  | copyStruct r =>
    obtain ⟨c1, c2⟩ := shallowStruct_spec hw he
    exact ⟨c1, .inr (.inl c2)⟩
  | copyDims r =>
    obtain ⟨c1, c2⟩ := shallowDim_spec hw he
    exact ⟨c1, .inr (.inl c2)⟩

end World

theorem Good.resetSol {A : Arith} {i : Inst} (h : Good A i) : Good A i.resetSol :=
  (Edited.resetSol h.valid).good h

theorem Good.setNum {A : Arith} {i : Inst} (h : Good A i) (n : Nat) : Good A { i with containersNum := n } :=
  ⟨⟨h.valid.conts, h.valid.items, h.valid.contsNe, h.valid.itemsNe, h.valid.strip, h.valid.height, h.valid.minPos⟩,
    h.minLe, h.strat, h.maxTime, h.workers, h.sol.imp id (fun g => g.congr rfl rfl rfl)⟩

/-- in every world that can be reached the objects fit together and the problem satisfies the
invariant of `Proofs/Machine.lean` -/
theorem WReach.good {A : Arith} {w : World} (h : WReach A w) : w.WF ∧ Good A w.view := by
  induction h with
  | new h =>
    have hg := mkInst_good (A := A) h
    obtain ⟨h1, h2⟩ := World.ofInst_spec hg.valid
    exact ⟨h1, by rw [h2]; exact hg⟩
  | step o _ he ih =>
    obtain ⟨hw, hg⟩ := ih
    obtain ⟨h1, h2⟩ := World.step_view (A := A) hw hg.valid o he
    refine ⟨h1, ?_⟩
    rcases h2 with ⟨op, h, _⟩ | h | h | ⟨_, n, h⟩
    · rw [h]; exact step_good hg op
    · rw [h]; exact hg
    · rw [h]; exact hg.resetSol
    · rw [h]; exact hg.resetSol.setNum n

/-- discarding the solution is something a user can do through the problem: assigning to a size the
value it has -/
theorem Reach.resetSol {A : Arith} {i : Inst} (h : Reach A i) : Reach A i.resetSol := by
  have hv := h.good.valid
  cases hi : i.items with
  | nil => exact absurd hi hv.itemsNe
  | cons p rest =>
    obtain ⟨s, d⟩ := p
    have hp := hv.items.2 (s, d) (by rw [hi]; exact List.mem_cons_self)
    have : (HP.step A i (.setDim .items (.str s) (.str "w") (.int d.w))).1 = i.resetSol := by
      show (i.setDim .items (.str s) (.str "w") (.int d.w)).1 = _
      unfold Inst.setDim
      have hf : PyDict.find? (i.data .items) s = some d := by
        show PyDict.find? i.items s = some d
        rw [hi]; simp [PyDict.find?]
      rw [World.lookupKey_str hf]
      have hx : PyVal.posInt? (.int d.w) = some d.w := by
        show (if (d.w : Int) ≤ 0 then none else some (d.w : Int).toNat) = _
        rw [if_neg (by have : 0 < d.w := hp.1; omega)]; simp
      simp only [hx]
      have hins : PyDict.insert (i.data .items) s { d with w := d.w } = i.items := by
        show PyDict.insert i.items s d = i.items
        rw [hi]; simp [PyDict.insert]
      rw [hins]
      rfl
    rw [← this]
    exact .step _ h

theorem WReachCur.reach {A : Arith} {w : World} (h : WReachCur A w) : WReach A w := by
  induction h with
  | new h => exact .new h
  | step o _ he _ ih => exact .step o ih he

theorem WReachCur.view {A : Arith} {w : World} (h : WReachCur A w) : Reach A w.view := by
  induction h with
  | new h =>
    obtain ⟨_, h2⟩ := World.ofInst_spec (mkInst_good (A := A) h).valid
    rw [h2]; exact .new h
  | step o hr he hn ih =>
    obtain ⟨hw, hg⟩ := hr.reach.good
    obtain ⟨_, h2⟩ := World.step_view (A := A) hw hg.valid o he
    rcases h2 with ⟨op, h, _⟩ | h | h | ⟨hc, _⟩
    · rw [h]; exact .step op ih
    · rw [h]; exact ih
    · rw [h]; exact ih.resetSol
    · exact absurd hc hn

end HP
