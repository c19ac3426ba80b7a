import Verif.Props.Interrupt
/-
C99: what cut off calls can leave behind, and concrete cases.
-/
namespace HP
open Spec

theorem solvedCut (A : Arith) : ReachCut A (step A problem (.solve none)).1 :=
  (Reach.step _ (problem_reach A)).toCut

/-- C99 is false of the code: a new width of a container, cut off between writing the width and
discarding the solution, leaves the old solution, and `log_solution()` reports items with more area
than the container has. -/
theorem C99_refuted : ∃ (i : Inst) (o : Op) (n : Nat), Reach Arith.exact i ∧
    (cut Arith.exact i o n).solution ≠ [] ∧ ¬ PacksCurrent (cut Arith.exact i o n) (cut Arith.exact i o n).solution ∧
    ∃ log c, (cut Arith.exact i o n).logSolution = .ok (some log) ∧ c ∈ log.containers ∧ c.width * c.length < c.itemsArea := by
  refine ⟨(step Arith.exact problem (.solve none)).1, .setDim .containers (.str "c1") (.str "W") (.int 1), 1,
    .step _ (problem_reach _), by decide +kernel, ?_,
    ⟨2, 3, [⟨"c1", 1, 3, 10, none⟩, ⟨"c2", 2, 2, 0, none⟩], ["b"]⟩, ⟨"c1", 1, 3, 10, none⟩, by decide +kernel, by simp, by decide⟩
  rintro ⟨_, _, h⟩
  have e1 : (cut Arith.exact (step Arith.exact problem (.solve none)).1
      (.setDim .containers (.str "c1") (.str "W") (.int 1)) 1).solution =
      [("c1", [("a", ⟨0, 0, 2, 3⟩), ("c", ⟨2, 0, 2, 2⟩)]), ("c2", [])] := by decide +kernel
  have e2 : (cut Arith.exact (step Arith.exact problem (.solve none)).1
      (.setDim .containers (.str "c1") (.str "W") (.int 1)) 1).containers = [("c1", ⟨1, 3⟩), ("c2", ⟨2, 2⟩)] := by decide +kernel
  obtain ⟨c, hc, hm⟩ := h "c1" [("a", ⟨0, 0, 2, 3⟩), ("c", ⟨2, 0, 2, 2⟩)] (by rw [e1]; simp)
  rw [e2] at hc
  simp only [List.mem_cons, Prod.mk.injEq, List.not_mem_nil, or_false] at hc
  rcases hc with ⟨_, rfl⟩ | ⟨h', _⟩
  · obtain ⟨d, _, _, hw, _⟩ := hm "a" ⟨0, 0, 2, 3⟩ (by simp)
    exact absurd hw (by decide)
  · exact absurd h' (by decide)

/-- C99 is false of the code: removing an item, cut off before the solution is discarded, cannot be
repeated: the second call raises a KeyError, and the solution with the removed item stays. -/
theorem C99_retry_refuted : ∃ (i : Inst) (o : Op) (n : Nat), Reach Arith.exact i ∧ (step Arith.exact i o).2 = .ok ∧
    (step Arith.exact (cut Arith.exact i o n) o).2 = .raised .keyError ∧
    ∃ id, id ∈ placedIds (step Arith.exact (cut Arith.exact i o n) o).1.solution ∧
      id ∉ (step Arith.exact (cut Arith.exact i o n) o).1.items.map (·.1) := by
  refine ⟨(step Arith.exact problem (.solve none)).1, .delKey .items (.str "a"), 1,
    .step _ (problem_reach _), by decide +kernel, by decide +kernel, "a", by decide +kernel, by decide +kernel⟩

/-- C99 is false of the code: `orient_items("wide")` that is cut off can leave an item that is
neither as it was nor turned: 3 x 3 instead of 2 x 3. -/
theorem C99_orient_refuted : ∃ (i : Inst) (n : Nat) (d d' : Dim), Reach Arith.exact i ∧ ("a", d) ∈ i.items ∧
    ("a", d') ∈ (cut Arith.exact i (.orientItems (.str "wide")) n).items ∧ d' ≠ d ∧ d' ≠ ⟨d.l, d.w⟩ :=
  ⟨problem, 1, ⟨2, 3⟩, ⟨3, 3⟩, problem_reach _, by decide, by decide +kernel, by decide, by decide⟩

/-- C99 is false of the code: the best solution of a local search is only kept in a local variable,
so that a search that is cut off can leave a worse solution than the one it started from: 2/3 of the
first container are used instead of 5/6. -/
theorem C99_best_refuted : ∃ (i : Inst) (o : Op) (n : Nat), Reach Arith.exact i ∧
    (∃ clock throttle, o = .localSearch clock throttle) ∧
    i.objVals = [("c1", 5 / 6), ("c2", 0)] ∧ (cut Arith.exact i o n).objVals = [("c1", 2 / 3), ("c2", 0)] ∧
    (step Arith.exact i o).1.objVals = [("c1", 5 / 6), ("c2", 1)] := by
  refine ⟨(step Arith.exact problem (.solve none)).1, .localSearch (fun _ => 0) false, 8, .step _ (problem_reach _),
    ⟨_, _, rfl⟩, by decide +kernel, by decide +kernel, by decide +kernel⟩

/-- C99 is false of the code: `solve()` cut off between its two assignments leaves the new solution with
the values of the old one. -/
theorem C99_values_refuted : ∃ (i : Inst) (seq : List String), Reach Arith.exact i ∧
    (cut Arith.exact i (.solve (some seq)) 1).solution = (step Arith.exact i (.solve (some seq))).1.solution ∧
    (cut Arith.exact i (.solve (some seq)) 1).objVals = i.objVals ∧
    (step Arith.exact i (.solve (some seq))).1.objVals ≠ i.objVals := by
  refine ⟨(step Arith.exact problem (.solve none)).1, ["b", "a", "c"], .step _ (problem_reach _),
    by decide +kernel, by decide +kernel, by decide +kernel⟩

/-- C99 is false of the code: new containers, cut off between the assignment and the count, leave the
number of the old containers. -/
theorem C99_count_refuted : ∃ (i : Inst) (v : PyVal) (n : Nat), Reach Arith.exact i ∧
    (cut Arith.exact i (.assign .containers v) n).containers.length ≠ (cut Arith.exact i (.assign .containers v) n).containersNum := by
  refine ⟨problem, .dict [(.str "c1", .dict [(.str "W", .int 4), (.str "L", .int 3)])], 3, problem_reach _, by decide +kernel⟩

/-- C99 is false of the code: `reset_container_height()` cut off between its two assignments leaves a
minimum height above the height. -/
theorem C99_height_refuted : ∃ (i : Inst) (m h : Nat), Reach Arith.exact i ∧
    (cut Arith.exact i .resetHeight 1).minHeight = some m ∧ (cut Arith.exact i .resetHeight 1).height = some h ∧ h < m := by
  refine ⟨runOps Arith.exact tooWide [.height (.int 100), .minHeight (.int 90)], 90, 40, ?_, by decide +kernel, by decide +kernel, by decide⟩
  exact .step _ (.step _ (tooWide_reach _))

/-! ### concrete cases -/

/-- C99_complete, C99_search_partial: a local search with 12 writes -/
example : (writes Arith.exact problem (.localSearch (fun _ => 0) false)).length = 12 ∧
    cut Arith.exact problem (.localSearch (fun _ => 0) false) 8 ≠ cut Arith.exact problem (.localSearch (fun _ => 0) false) 12 := by
  refine ⟨by decide +kernel, fun h => ?_⟩
  have := congrArg Inst.objVals h
  exact absurd this (by decide +kernel)

/-- C99_valid, C99_usable, C99_log: a state that no complete call leaves (item and stale solution) -/
example : ReachCut Arith.exact (cut Arith.exact (step Arith.exact problem (.solve none)).1 (.delKey .items (.str "a")) 1) ∧
    (cut Arith.exact (step Arith.exact problem (.solve none)).1 (.delKey .items (.str "a")) 1).items.length = 2 ∧
    placedIds (cut Arith.exact (step Arith.exact problem (.solve none)).1 (.delKey .items (.str "a")) 1).solution = ["a", "c"] :=
  ⟨.cut _ _ (solvedCut _), by decide +kernel, by decide +kernel⟩

/-- C99_prefix: the first of two new items is there -/
example : ((cut Arith.exact problem (.update .items
      [(.str "d", .dict [(.str "w", .int 1), (.str "l", .int 1)]), (.str "e", .dict [(.str "w", .int 1), (.str "l", .int 2)])]) 5).items.map (·.1)) =
    ["a", "b", "c", "d"] ∧
    (cut Arith.exact problem (.clear .items) 4).items.map (·.1) = ["c"] := by
  constructor <;> decide +kernel

/-- C99_retry: a half done new width, repeated -/
example : (cut Arith.exact (step Arith.exact problem (.solve none)).1 (.setDim .items (.str "a") (.str "w") (.int 1)) 1).solution ≠ [] ∧
    (step Arith.exact (cut Arith.exact (step Arith.exact problem (.solve none)).1
      (.setDim .items (.str "a") (.str "w") (.int 1)) 1) (.setDim .items (.str "a") (.str "w") (.int 1))).1.solution = [] := by
  constructor <;> decide +kernel

/-- C99_solution_partial: a search cut off after eight writes is followed by a new item -/
example : CutSafely Arith.exact (cut Arith.exact (step Arith.exact problem (.solve none)).1 (.localSearch (fun _ => 0) false) 8) ∧
    (cut Arith.exact (step Arith.exact problem (.solve none)).1 (.localSearch (fun _ => 0) false) 8).solution ≠ [] :=
  ⟨.cut _ _ (by simp [EditsFirst]) (.done _ (.new problem_new)), by decide +kernel⟩

/-- C99_again: in a bin packing problem -/
example : problem.strip = false ∧ problem.workers = .int 1 ∧ ReachCut Arith.exact problem :=
  ⟨rfl, rfl, (problem_reach _).toCut⟩

end HP
