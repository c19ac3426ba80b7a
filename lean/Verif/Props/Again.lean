import Verif.Props.Frame
import Verif.Props.Workers
import Verif.Props.CompareDemo
/-
Property C96: searching again.
-/
namespace HP
open Spec

/-- no reading of the clock during a search is past the time limit of the object -/
def WithinLimit (A : Arith) (i : Inst) (clock : Nat → Rat) : Prop :=
  ∀ n, A.sub (clock (n + 1)) (clock 0) < (i.maxTime : Rat)

/-- what the result of a search depends on is the same in both states -/
def SameTask (i k : Inst) : Prop :=
  ∀ a ∈ [Attr.mode, .items, .containers, .options, .strategy, .height, .minHeight], Attr.Same i k a

theorem step_localSearch {A : Arith} {i j : Inst} {t : LSState Inst (Solution × ObjVals)} {clock : Nat → Rat}
    {throttle : Bool} (h : i.localSearch A (fun k => clock (k + 1)) (clock 0) throttle = .ok (j, t)) :
    step A i (.localSearch clock throttle) = (j, .ok) := by
  simp only [step, h]

/-- C96, the part that is true in both modes: if items, containers, strategy, options and heights are the
same as before the first search, the second one ends with the same result, whatever happened in between. -/
theorem C96_same_partial (A : Arith) (i k : Inst) (hi : Reach A i) (hk : Reach A k) (hs : SameTask i k)
    (c1 c2 : Nat → Rat) (throttle : Bool) (h1 : WithinLimit A i c1) (h2 : WithinLimit A k c2) :
    (step A k (.localSearch c2 throttle)).2 = .ok ∧
    (step A k (.localSearch c2 throttle)).1.solution = (step A i (.localSearch c1 throttle)).1.solution ∧
    (step A k (.localSearch c2 throttle)).1.objVals = (step A i (.localSearch c1 throttle)).1.objVals ∧
    (i.strip = true →
      (step A k (.localSearch c2 throttle)).1.height = (step A i (.localSearch c1 throttle)).1.height) := by
  have e1 : k.strip = i.strip := hs .mode (by simp)
  have e2 : k.items = i.items := hs .items (by simp)
  obtain ⟨e3, e4⟩ : k.containers = i.containers ∧ k.containersNum = i.containersNum := hs .containers (by simp)
  obtain ⟨e5, _⟩ : k.rotation = i.rotation ∧ _ := hs .options (by simp)
  have e6 : k.strategy = i.strategy := hs .strategy (by simp)
  have e7 : k.height = i.height := hs .height (by simp)
  have e8 : k.minHeight = i.minHeight := hs .minHeight (by simp)
  obtain ⟨j1, t1, j2, t2, g1, g2, g3, g4, _, g5⟩ := C58_local A (fun n => c1 (n + 1)) (fun n => c2 (n + 1))
    (c1 0) (c2 0) throttle i k e1.symm e3.symm e2.symm e5.symm e6.symm e7.symm e8.symm e4.symm
    hi.good.valid hk.good.valid h1 h2
  rw [step_localSearch g1, step_localSearch g2]
  exact ⟨rfl, g3.symm, g4.symm, fun h => (g5 h).symm⟩

theorem reach_runOps {A : Arith} {i : Inst} (h : Reach A i) (ops : List Op) : Reach A (runOps A i ops) := by
  induction ops generalizing i with
  | nil => exact h
  | cons o ops ih => exact ih (.step o h)

theorem mode_kept (j : Inst) (o : Op) : Attr.mode ∉ mayChange j o := by
  cases o with
  | assign k _ => cases k <;> simp [mayChange, Attr.of]
  | setKey k _ _ => cases k <;> simp [mayChange, Attr.of]
  | delKey k _ => cases k <;> simp [mayChange, Attr.of]
  | setDim k _ _ _ => cases k <;> simp [mayChange, Attr.of]
  | popKey k _ _ => cases k <;> simp [mayChange, Attr.of]
  | popItem k => cases k <;> simp [mayChange, Attr.of]
  | clear k => cases k <;> simp [mayChange, Attr.of]
  | update k _ => cases k <;> simp [mayChange, Attr.of]
  | updateDim k _ _ => cases k <;> simp [mayChange, Attr.of]
  | setDefault k _ _ => cases k <;> simp [mayChange, Attr.of]
  | resetHeight => simp only [mayChange]; split <;> simp
  | localSearch _ _ => simp only [mayChange]; split <;> simp
  | hypersearch _ =>
    simp only [mayChange]
    split
    · split <;> simp
    · simp
  | _ => simp [mayChange]

/-- C96 in bin packing: after calls that may change neither items, containers, settings, strategy nor heights
(solving, searching, logging, drawing and the like), `local_search()` gives the result of the first one. -/
theorem C96_bin_partial (A : Arith) (i : Inst) (hi : Reach A i) (hb : i.strip = false) (ops : List Op)
    (hops : ∀ pre o post, ops = pre ++ o :: post →
      ∀ a ∈ [Attr.items, .containers, .options, .strategy, .height, .minHeight],
        a ∉ mayChange (runOps A i pre) o)
    (c1 c2 : Nat → Rat) (throttle : Bool) (h1 : WithinLimit A i c1) (h2 : WithinLimit A i c2) :
    (step A (runOps A i ops) (.localSearch c2 throttle)).2 = .ok ∧
    (step A (runOps A i ops) (.localSearch c2 throttle)).1.solution =
      (step A i (.localSearch c1 throttle)).1.solution ∧
    (step A (runOps A i ops) (.localSearch c2 throttle)).1.objVals =
      (step A i (.localSearch c1 throttle)).1.objVals := by
  have hs : SameTask i (runOps A i ops) := by
    intro a ha
    refine C95_history A a ops i hi (fun pre o post he => ?_)
    rcases List.mem_cons.1 ha with rfl | ha
    · exact mode_kept _ _
    · exact hops pre o post he a ha
  have hk : Reach A (runOps A i ops) := reach_runOps hi ops
  have hmax : (runOps A i ops).maxTime = i.maxTime := (hs .options (by simp)).2.1
  obtain ⟨g1, g2, g3, _⟩ := C96_same_partial A i _ hi hk hs c1 c2 throttle h1 (by
    unfold WithinLimit; rw [hmax]; exact h2)
  exact ⟨g1, g2, g3⟩

/-- C96 in strip packing: the packing of the second search is not higher than that of the first (or than
`container_min_height`, if that is larger). -/
theorem C96_height_partial (A : Arith) (i : Inst) (hi : Reach A i) (hst : i.strip = true)
    (c1 c2 : Nat → Rat) (throttle : Bool) (h1 : WithinLimit A i c1) (h2 : WithinLimit A i c2) (j k : Inst)
    (hj : step A i (.localSearch c1 throttle) = (j, .ok)) (hk : step A j (.localSearch c2 throttle) = (k, .ok)) :
    ∃ m1 m2, j.solution = [(stripId, m1)] ∧ k.solution = [(stripId, m2)] ∧
      stackHeight (m2.map (·.2)) ≤ max (stackHeight (m1.map (·.2))) (i.minHeight.getD 0) := by
  have hv := hi.good.valid
  obtain ⟨j', t1, g1⟩ := C18_terminates A (fun n => c1 (n + 1)) (c1 0) throttle i hv
  have e1 := step_localSearch g1
  rw [hj] at e1
  injection e1 with e1 _
  subst e1
  have hrj : Reach A j := by have := Reach.step (.localSearch c1 throttle) hi; rwa [hj] at this
  have hvj := hrj.good.valid
  obtain ⟨k', t2, g2⟩ := C18_terminates A (fun n => c2 (n + 1)) (c2 0) throttle j hvj
  have e2 := step_localSearch g2
  rw [hk] at e2
  injection e2 with e2 _
  subst e2
  obtain ⟨fj, _⟩ := C17_frame A _ _ throttle i j t1 hv g1
  have hstj : j.strip = true := by rw [fj]; exact hst
  have hminj : j.minHeight = i.minHeight := by rw [fj]
  obtain ⟨W, hW⟩ := hv.strip hst
  have hWj : j.containers = i.containers := by rw [fj]
  have single : ∀ x : Solution, x.map (·.1) = i.containers.map (·.1) → ∃ m, x = [(stripId, m)] := by
    intro x hx
    rw [hW] at hx
    match x, hx with
    | [(a, m)], hx => simp at hx; exact ⟨m, by rw [hx]⟩
  obtain ⟨c1', _, _, _⟩ := C17_carries_over A _ _ throttle i j t1 hv g1
  obtain ⟨c2', _, _, c2in⟩ := C17_carries_over A _ _ throttle j k t2 hvj g2
  rw [hWj] at c2'
  obtain ⟨m1, hm1⟩ := single _ c1'
  obtain ⟨m2, hm2⟩ := single _ c2'
  refine ⟨m1, m2, hm1, hm2, ?_⟩
  rcases C23_final_height A _ _ throttle i j t1 hv hst g1 with ⟨hh, _⟩ | ⟨m, hsol, hh, _⟩
  · -- not improved: the second search is the first one again
    have hs : SameTask i j := by
      intro a ha
      simp only [List.mem_cons, List.not_mem_nil, or_false] at ha
      rcases ha with rfl | rfl | rfl | rfl | rfl | rfl | rfl
      · exact hstj.trans hst.symm
      · show j.items = i.items
        rw [fj]
      · show j.containers = i.containers ∧ j.containersNum = i.containersNum
        rw [fj]; exact ⟨rfl, rfl⟩
      · show j.rotation = i.rotation ∧ j.maxTime = i.maxTime ∧ j.workers = i.workers
        rw [fj]; exact ⟨rfl, rfl, rfl⟩
      · show j.strategy = i.strategy
        rw [fj]
      · exact hh
      · exact hminj
    have hmax : j.maxTime = i.maxTime := by rw [fj]
    obtain ⟨_, e, _⟩ := C96_same_partial A i j hi hrj hs c1 c2 throttle h1 (by
      unfold WithinLimit; rw [hmax]; exact h2)
    rw [hj, hk] at e
    simp only at e
    rw [hm1, hm2] at e
    simp only [List.cons.injEq, Prod.mk.injEq, true_and, and_true] at e
    rw [e]
    exact Nat.le_max_left _ _
  · -- improved: everything is below the new height
    rw [hm1] at hsol
    simp only [List.cons.injEq, Prod.mk.injEq, true_and, and_true] at hsol
    subst hsol
    obtain ⟨H, q1, _, q3⟩ := C25_heights A j hrj hstj
    have hle : j.minHeight.getD 0 ≤ j.height.getD 0 := by
      rw [q1]
      cases hmm : j.minHeight with
      | none => simp
      | some mm => simpa using (q3 mm hmm).2
    obtain ⟨d1, _, d3⟩ := C23_height_down A _ _ throttle j k t2 hvj hstj hle g2
    have hall : ∀ x ∈ k.heights, x ≤ j.height.getD 0 := by
      intro x hx
      cases hhs : k.heights with
      | nil => rw [hhs] at hx; cases hx
      | cons y ys =>
        rw [hhs] at d1 d3 hx
        simp only [List.head?_cons, Option.some.injEq] at d1
        rcases List.mem_cons.1 hx with rfl | hx
        · exact d1.le
        · have := (List.pairwise_cons.1 d3).1 x hx
          omega
    rw [hh] at hall
    simp only [Option.getD_some] at hall
    obtain ⟨c, _, hin, _⟩ := c2in stripId m2 (by rw [hm2]; simp)
    refine stackHeight_le.2 ?_
    intro r hr
    obtain ⟨q, hq, rfl⟩ := List.mem_map.1 hr
    obtain ⟨_, _, _, _, _, htop⟩ := hin q.1 q.2 hq
    obtain ⟨H', hH', hle'⟩ := htop hstj
    exact le_trans hle' (hall _ hH')

theorem runOps_snoc (A : Arith) (i : Inst) (ops : List Op) (o : Op) :
    runOps A i (ops ++ [o]) = (step A (runOps A i ops) o).1 := by
  induction ops generalizing i with
  | nil => rfl
  | cons p ops ih => exact ih _

/-- C96 in strip packing, from the state of a new object (`container_height` ten times the width and no
minimum height): after calls that touch neither items, containers, settings nor strategy,
`reset_container_height()` and `local_search()` together give the result of the first search again. -/
theorem C96_reset_partial (A : Arith) (i : Inst) (hi : Reach A i) (W L : Nat) (hst : i.strip = true)
    (hW : i.containers = [(stripId, ⟨W, L⟩)]) (hh : i.height = some (10 * W)) (hm : i.minHeight = none)
    (ops : List Op)
    (hops : ∀ pre o post, ops = pre ++ o :: post →
      ∀ a ∈ [Attr.items, .containers, .options, .strategy], a ∉ mayChange (runOps A i pre) o)
    (c1 c2 : Nat → Rat) (throttle : Bool) (h1 : WithinLimit A i c1) (h2 : WithinLimit A i c2) :
    (step A (runOps A i (ops ++ [.resetHeight])) (.localSearch c2 throttle)).2 = .ok ∧
    (step A (runOps A i (ops ++ [.resetHeight])) (.localSearch c2 throttle)).1.solution =
      (step A i (.localSearch c1 throttle)).1.solution ∧
    (step A (runOps A i (ops ++ [.resetHeight])) (.localSearch c2 throttle)).1.objVals =
      (step A i (.localSearch c1 throttle)).1.objVals ∧
    (step A (runOps A i (ops ++ [.resetHeight])) (.localSearch c2 throttle)).1.height =
      (step A i (.localSearch c1 throttle)).1.height := by
  have hk : Reach A (runOps A i (ops ++ [.resetHeight])) := reach_runOps hi _
  have hkeep : ∀ a ∈ [Attr.mode, .items, .containers, .options, .strategy], Attr.Same i (runOps A i ops) a := by
    intro a ha
    refine C95_history A a ops i hi (fun pre o post he => ?_)
    rcases List.mem_cons.1 ha with rfl | ha
    · exact mode_kept _ _
    · exact hops pre o post he a ha
  have e1 : (runOps A i ops).strip = i.strip := hkeep .mode (by simp)
  obtain ⟨e3, _⟩ : (runOps A i ops).containers = i.containers ∧ _ := hkeep .containers (by simp)
  have hrun : runOps A i (ops ++ [.resetHeight]) =
      { runOps A i ops with height := some (10 * W), minHeight := none } := by
    rw [runOps_snoc]
    simp only [step, Inst.resetHeight, e1, hst, if_true, e3, hW, PyDict.find?, outcomeOf]
    simp [maxRatio, Nat.mul_comm]
  have hs : SameTask i (runOps A i (ops ++ [.resetHeight])) := by
    intro a ha
    rw [hrun]
    simp only [List.mem_cons, List.not_mem_nil, or_false] at ha
    rcases ha with rfl | rfl | rfl | rfl | rfl | rfl | rfl
    · exact hkeep .mode (by simp)
    · exact hkeep .items (by simp)
    · exact hkeep .containers (by simp)
    · exact hkeep .options (by simp)
    · exact hkeep .strategy (by simp)
    · exact hh.symm
    · exact hm.symm
  have hmax : (runOps A i (ops ++ [.resetHeight])).maxTime = i.maxTime := (hs .options (by simp)).2.1
  obtain ⟨g1, g2, g3, g4⟩ := C96_same_partial A i _ hi hk hs c1 c2 throttle h1 (by
    unfold WithinLimit; rw [hmax]; exact h2)
  exact ⟨g1, g2, g3, g4 hst⟩

/-! ### the claim is false in strip packing -/

/-- `HyperPack(strip_pack_width=4, items={"i0": 3 × 3, "i1": 1 × 4, "i2": 4 × 1}, settings={"rotation": False})`,
then `problem.container_height = 7` -/
def againProblem : Inst := { rawInst true [(stripId, ⟨4, stripInitHeight⟩)]
    [("i0", ⟨3, 3⟩), ("i1", ⟨1, 4⟩), ("i2", ⟨4, 1⟩)] (some 7) (.dict [(.str "rotation", .bool false)]) with
  rotation := false, maxTime := 60, workers := .int 1 }

theorem againProblem_reach (A : Arith) : Reach A againProblem :=
  .step (.height (.int 7)) (.new (E := bareEnv) (i := { againProblem with height := some 40 })
    (containers := .none) (items := SKind.items.encodeAll [("i0", ⟨3, 3⟩), ("i1", ⟨1, 4⟩), ("i2", ⟨4, 1⟩)])
    (settings := .dict [(.str "rotation", .bool false)]) (stripWidth := .int 4) (by rfl))

/-- what the two searches leave, one after the other -/
structure AgainView where
  sol1 : Solution
  height1 : Option Nat
  sol2 : Solution
  height2 : Option Nat
deriving DecidableEq

def againView : Option AgainView :=
  match againProblem.localSearch Arith.exact (fun _ => 0) 0 true with
  | .ok (j, _) =>
    match j.localSearch Arith.exact (fun _ => 0) 0 true with
    | .ok (k, _) => some ⟨j.solution, j.height, k.solution, k.height⟩
    | .error _ => none
  | .error _ => none

theorem againView_eq : againView = some
    ⟨[(stripId, [("i0", ⟨1, 1, 3, 3⟩), ("i1", ⟨0, 1, 1, 4⟩), ("i2", ⟨0, 0, 4, 1⟩)])], some 5,
     [(stripId, [("i0", ⟨0, 0, 3, 3⟩), ("i2", ⟨0, 3, 4, 1⟩)])], some 5⟩ := by decide +kernel

/-- C96 is false of the code in strip packing: the first `local_search()` packs all three items, the second
one, called directly afterwards and within the time limit, loses `i1`. -/
theorem C96_refuted : ∃ i, Reach Arith.exact i ∧ WithinLimit Arith.exact i (fun _ => 0) ∧
    (∃ m1, (step Arith.exact i (.localSearch (fun _ => 0) true)).1.solution = [(stripId, m1)] ∧
      m1.map (·.1) = i.items.map (·.1) ∧
    ∃ m2, (runOps Arith.exact i [.localSearch (fun _ => 0) true, .localSearch (fun _ => 0) true]).solution =
        [(stripId, m2)] ∧ "i1" ∈ i.items.map (·.1) ∧ "i1" ∉ m2.map (·.1)) := by
  have hv := againView_eq
  unfold againView at hv
  refine ⟨againProblem, againProblem_reach _, ?_, ?_⟩
  · intro n
    show (0 : Rat) - 0 < _
    decide +kernel
  match h1 : againProblem.localSearch Arith.exact (fun _ => 0) 0 true, hv with
  | .ok (j, t), hv =>
    simp only at hv
    match h2 : j.localSearch Arith.exact (fun _ => 0) 0 true, hv with
    | .ok (k, t2), hv =>
      simp only [Option.some.injEq, AgainView.mk.injEq] at hv
      obtain ⟨g1, _, g3, _⟩ := hv
      have s1 : step Arith.exact againProblem (.localSearch (fun _ => 0) true) = (j, .ok) := step_localSearch h1
      have s2 : step Arith.exact j (.localSearch (fun _ => 0) true) = (k, .ok) := step_localSearch h2
      have e2 : (runOps Arith.exact againProblem [.localSearch (fun _ => 0) true,
          .localSearch (fun _ => 0) true]).solution =
          [(stripId, [("i0", ⟨0, 0, 3, 3⟩), ("i2", ⟨0, 3, 4, 1⟩)])] := by
        show (step Arith.exact (step Arith.exact againProblem (.localSearch (fun _ => 0) true)).1
          (.localSearch (fun _ => 0) true)).1.solution = _
        rw [s1, s2]; exact g3
      exact ⟨_, by rw [s1]; exact g1, rfl, _, e2, by decide, by decide⟩

/-- the hypotheses of the height and reset parts hold of `stripProblem`, a new object -/
example : Reach Arith.exact stripProblem ∧ stripProblem.strip = true ∧
    stripProblem.containers = [(stripId, ⟨4, stripInitHeight⟩)] ∧ stripProblem.height = some (10 * 4) ∧
    stripProblem.minHeight = none ∧ WithinLimit Arith.exact stripProblem (fun n => n / (n + 1)) ∧
    (∃ j, step Arith.exact stripProblem (.localSearch (fun n => n / (n + 1)) true) = (j, .ok)) ∧
    (∀ pre o post, [Op.solve none, .localSearch (fun n => n / (n + 1)) true] = pre ++ o :: post →
      ∀ a ∈ [Attr.items, .containers, .options, .strategy], a ∉ mayChange (runOps Arith.exact stripProblem pre) o) := by
  refine ⟨stripProblem_reach _, rfl, rfl, rfl, rfl, ?_, ?_, ?_⟩
  · intro n
    show ((n + 1 : Nat) : Rat) / ((n + 1 : Nat) + 1) - ((0 : Nat) : Rat) / ((0 : Nat) + 1) < ((60 : Int) : Rat)
    have hp : (0 : Rat) < ((n + 1 : Nat) : Rat) + 1 := by positivity
    have : ((n + 1 : Nat) : Rat) / ((n + 1 : Nat) + 1) < 1 := by rw [div_lt_one hp]; linarith
    push_cast at *
    simp only [zero_div, sub_zero]
    linarith
  · obtain ⟨j, t, h⟩ := C18_terminates Arith.exact (fun n => ((n + 1 : Nat) : Rat) / ((n + 1 : Nat) + 1))
      (((0 : Nat) : Rat) / ((0 : Nat) + 1)) true stripProblem (stripProblem_reach Arith.exact).good.valid
    exact ⟨j, step_localSearch h⟩
  · intro pre o post he a ha
    match pre, he with
    | [], he =>
      simp only [List.nil_append, List.cons.injEq] at he
      rw [← he.1]
      revert ha; cases a <;> simp [mayChange]
    | [p], he =>
      simp only [List.cons_append, List.nil_append, List.cons.injEq] at he
      rw [← he.2.1]
      simp only [mayChange]
      split <;> (revert ha; cases a <;> simp)
    | p :: q :: r, he => simp at he

end HP
