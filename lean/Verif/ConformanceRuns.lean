import Verif.ConformanceErrors
/-
Tests, not proofs: results that the repository's own tests (tests/solving_tests,
tests/strip_pack_tests, tests/test_*.py) expect, computed by the model with exact arithmetic and a
clock that stands still.  The short ones are checked by the kernel below.  The long ones are the
definition `longRuns`, which the build does not evaluate (about two minutes):

    echo 'import Verif.ConformanceRuns
    #eval HP.ConformanceRuns.longRuns' | lake env lean --stdin

prints `true` for each.  The properties do not depend on this file.
-/
namespace HP.ConformanceRuns
open ConformanceErrors

/-- arguments as Python values -/
def pyItems (l : List (String × Nat × Nat)) : PyVal :=
  .dict (l.map fun p => (.str p.1, .dict [(.str "w", .int p.2.1), (.str "l", .int p.2.2)]))
def pyConts (l : List (String × Nat × Nat)) : PyVal :=
  .dict (l.map fun p => (.str p.1, .dict [(.str "W", .int p.2.1), (.str "L", .int p.2.2)]))

/-- containers and items named as in the tests -/
def cs (l : List (Nat × Nat)) : PyVal := pyConts (l.zipIdx.map fun (p, i) => (s!"cont-{i}", p))
def its (l : List (Nat × Nat)) : PyVal := pyItems (l.zipIdx.map fun (p, i) => (s!"i-{i}", p))

/-- `HyperPack(containers, items, settings)` and calls on it -/
def run (containers items settings stripWidth : PyVal) (ops : List Op) : Inst :=
  runOps Arith.exact (get (mkInst env containers items settings stripWidth)) ops

/-- a strategy is assigned to the private attribute in these tests -/
def runAB (containers items : PyVal) (ops : List Op) : Inst :=
  run containers items .none .none (.strategy (.tuple [.str "A", .str "B"]) :: ops)

/-- `calculate_obj_value()` -/
def obj (i : Inst) : Option Rat := (i.calcObj Arith.exact).toOption

/-- `_containers._get_height(id)` -/
def height (i : Inst) (cid : String) : Option Nat := (i.getHeight cid).toOption

/-- percentage of items stored, containers with their utilisation, remaining items: the numbers of
`log_solution()` -/
def logged (i : Inst) : Option (Rat × List (String × Nat × Nat × Rat) × List String) :=
  match i.logSolution with
  | .ok (some l) => some (100 * (l.stored : Rat) / l.total,
      l.containers.map (fun c => (c.id, c.width, c.length, 100 * (c.itemsArea : Rat) / (c.width * c.length : Nat))),
      l.remaining)
  | _ => none

/-! ### checked by the kernel -/

-- test_operability.py, test_calculate_obj_value
example : obj (runAB (cs [(2, 3), (2, 2)]) (its [(2, 3), (1, 1)]) [.solve none]) = some (1175 / 1000) := by decide +kernel
example : obj (runAB (cs [(2, 3)]) (its [(2, 3)]) [.solve none]) = some 1 := by decide +kernel
example : obj (runAB (cs [(2, 4), (3, 3)]) (its [(2, 2), (3, 3)]) [.solve none]) = some (12 / 10) := by decide +kernel
example : obj (runAB (cs [(2, 3), (3, 3), (3, 3)]) (its [(2, 2), (3, 3), (2, 1)]) [.solve none]) = some 2 := by decide +kernel

-- test_solve.py, test_fitting, test_rotation_when_fiting
example : (runAB (cs [(2, 3)]) (its [(2, 3), (1, 1)]) [.solve none]).solution.map (fun c => c.2.length) = [1] := by decide +kernel
example : ((run (cs [(2, 3)]) (its [(1, 2), (3, 1)]) .none .none
    [.strategy (.tuple [.str "B"]), .solve none]).solution.flatMap (·.2)).map (fun q => (q.1, q.2.x, q.2.y)) =
    [("i-0", 0, 0), ("i-1", 1, 0)] := by decide +kernel

-- test_solution_logging.py, test_log_solution
example : (logged (runAB (cs [(2, 3), (2, 2)]) (its [(2, 3), (1, 1)]) [.solve none]) ==
    some (100, [("cont-0", 2, 3, 100), ("cont-1", 2, 2, 25)], [])) = true := by decide +kernel
example : (logged (runAB (cs [(2, 3)]) (its [(3, 3)]) [.solve none]) ==
    some (0, [("cont-0", 2, 3, 0)], ["i-0"])) = true := by decide +kernel
example : (logged (runAB (cs [(2, 4), (3, 3)]) (its [(2, 2), (3, 3), (1, 4)]) [.solve none]) ==
    some (200 / 3, [("cont-0", 2, 4, 50), ("cont-1", 3, 3, 100)], ["i-2"])) = true := by decide +kernel
-- test_log_solution_no_solution_found, test_log_solution_emtpy_container_solution
example : (logged prob).isNone = true := by decide +kernel
example : (logged (run (pyConts [("cont_id", 1, 1)]) (pyItems [("test_id", 101, 101)]) .none .none [.solve none]) ==
    some (0, [("cont_id", 1, 1, 0)], ["test_id"])) = true := by decide +kernel

/-- the items of test_orient_items.py and test_sort_items.py -/
def seven : PyVal := its [(2, 3), (12, 3), (12, 14), (1, 1), (4, 6), (7, 9), (1, 2)]
def seven0 : PyDict String Dim := (run (cs [(55, 55)]) seven .none .none []).items
def after (o : Op) : PyDict String Dim := (run (cs [(55, 55)]) seven .none .none [o]).items

-- test_orient_items.py
example : after (.orientItems (.str "wide")) ≠ seven0 ∧ (after (.orientItems (.str "wide"))).all (fun p => p.2.l ≤ p.2.w) = true := by decide +kernel
example : after (.orientItems (.str "long")) ≠ seven0 ∧ (after (.orientItems (.str "long"))).all (fun p => p.2.w ≤ p.2.l) = true := by decide +kernel
example : (run (cs [(55, 55)]) seven (.dict [(.str "rotation", .bool false)]) .none [.orientItems (.str "wide")]).items = seven0 := by decide +kernel
example : after (.orientItems (.str "wrong_param")) = seven0 := by decide +kernel
example : after (.orientItems .none) = seven0 := by decide +kernel

-- test_sort_items.py
def sorted (by_ : String) (rev : Bool) (q : Dim → Nat) : Bool :=
  let l := (after (.sortItems (some (.str by_, rev)))).map (fun p => q p.2)
  after (.sortItems (some (.str by_, rev))) != seven0 &&
    (l.zip (l.drop 1)).all (fun p => if rev then p.2 ≤ p.1 else p.1 ≤ p.2)
example : sorted "area" true (fun d => d.w * d.l) = true := by decide +kernel
example : sorted "area" false (fun d => d.w * d.l) = true := by decide +kernel
example : sorted "perimeter" true (fun d => 2 * d.w + 2 * d.l) = true := by decide +kernel
example : sorted "perimeter" false (fun d => 2 * d.w + 2 * d.l) = true := by decide +kernel
-- ratio, times 12! to have whole numbers
example : sorted "longest_side_ratio" true (fun d => 479001600 * max d.w d.l / min d.w d.l) = true := by decide +kernel
example : sorted "longest_side_ratio" false (fun d => 479001600 * max d.w d.l / min d.w d.l) = true := by decide +kernel
example : (step Arith.exact (run (cs [(55, 55)]) seven .none .none []) (.sortItems (some (.str "NotImplemented", false)))).2 = .raised .notImplementedError := by decide +kernel
example : after (.sortItems none) = seven0 := by decide +kernel

-- structures_tests: deletion, test_items_deletion, test_containers_deletion
example : (step Arith.exact prob (.delKey .items (.str "test_id"))).2 = .raised (.itemsError "CANT_DELETE_STRUCTURE") := by decide +kernel
example : (step Arith.exact prob (.delKey .containers (.str "cont_id"))).2 = .raised (.containersError "CANT_DELETE_STRUCTURE") := by decide +kernel
example : let i := runOps Arith.exact prob [.setKey .items (.str "test_id_2") (.dict [(.str "w", .int 9), (.str "l", .int 9)]), .delKey .items (.str "test_id")]
    i.items = [("test_id_2", ⟨9, 9⟩)] ∧ i.solution.length = 0 ∧ i.objVals.length = 0 ∧ i.containersNum = 1 := by decide +kernel
example : (step Arith.exact prob (.delDim .containers (.str "cont_id"))).2 = .raised (.dimensionsError "CANT_DELETE") := by decide +kernel
example : (step Arith.exact prob (.delDim .items (.str "test_id"))).2 = .raised (.dimensionsError "CANT_DELETE") := by decide +kernel
-- test_containers_assignment_resets_attributes (the number of containers)
example : let i := runOps Arith.exact prob [.setKey .containers (.str "cont_id_2") (.dict [(.str "W", .int 9), (.str "L", .int 9)])]
    (i.containersNum, (step Arith.exact i (.delKey .containers (.str "cont_id_2"))).1.containersNum) = (2, 1) := by decide +kernel

-- test_strip_pack_attrs.py
def strip10 : Inst := run .none ConformanceErrors.items .none (.int 10) []
example : (strip10.containers, strip10.strip, strip10.height, strip10.minHeight) =
    ([("strip-pack-container", ⟨10, 2 ^ 100⟩)], true, some 100, none) := by decide +kernel
example : (step Arith.exact strip10 (.assign .containers conts)).2 = .raised (.containersError "STRIP_PACK_ONLY") := by decide +kernel
example : (step Arith.exact strip10 (.setKey .containers (.str stripId) (.dict [(.str "W", .int 10), (.str "L", .int 10)]))).2 = .raised (.containersError "STRIP_PACK_ONLY") := by decide +kernel
example : (step Arith.exact strip10 (.setDim .containers (.str stripId) (.str "W") (.int 10))).2 = .raised (.containersError "STRIP_PACK_ONLY") := by decide +kernel
example : (step Arith.exact strip10 (.setDim .containers (.str stripId) (.str "L") (.int 10))).2 = .raised (.containersError "STRIP_PACK_ONLY") := by decide +kernel
def heights11 : Inst := runOps Arith.exact strip100 [.height (.int 11), .minHeight (.int 10)]
example : (height heights11 stripId, heights11.height, heights11.minHeight) = (some 1000, some 11, some 10) := by decide +kernel
example : let i := runOps Arith.exact heights11 [.solve none]
    (height i stripId, i.height, i.minHeight) = (some 10, some 11, some 10) := by decide +kernel
example : let i := runOps Arith.exact heights11 [.localSearch (fun _ => 0) true]
    (height i stripId, i.height, i.minHeight) = (some 10, some 11, some 10) := by decide +kernel

/-! ### long runs -/

/-- C3, items_a (hyperpack/benchmarks/datasets/hopper_and_turton_2000/C3.py) -/
def c3a : List (String × Nat × Nat) :=
  [("i_0", 7, 5), ("i_1", 14, 5), ("i_2", 14, 8), ("i_3", 4, 8), ("i_4", 21, 13),
   ("i_5", 7, 11), ("i_6", 14, 11), ("i_7", 14, 5), ("i_8", 4, 5), ("i_9", 18, 3),
   ("i_10", 21, 3), ("i_11", 17, 11), ("i_12", 4, 11), ("i_13", 7, 4), ("i_14", 5, 4),
   ("i_15", 6, 7), ("i_16", 18, 5), ("i_17", 3, 5), ("i_18", 7, 3), ("i_19", 5, 3),
   ("i_20", 18, 4), ("i_21", 3, 4), ("i_22", 12, 2), ("i_23", 6, 2), ("i_24", 18, 5),
   ("i_25", 21, 5), ("i_26", 17, 3), ("i_27", 4, 3)]

/-- a tuple of point classes -/
def tup (l : List String) : PyVal := .tuple (l.map .str)

/-- POTENTIAL_POINTS_STRATEGY of test_strip_local_search.py -/
def stripStrategy : Op := .strategy (tup ["B", "C", "D", "B_", "B__", "E", "F", "A__", "A_", "A"])
def local_ : Op := .localSearch (fun _ => 0) true

/-- `hypersearch(_exhaustive=False)`; the workers (if any) run in turns -/
def hyper (fail : Nat → Bool) : Op :=
  .hypersearch ⟨.str "wide", some (.str "area", true), true, false, id, fun _ _ => .refl _, fun _ => 0, env,
    fun _ _ => 0, fail, fun _ => true, (List.range 400).map (fun k => (k % 2, .step))⟩

/-- numbers with four digits, as the log prints them -/
def near (a b : Rat) : Bool := decide ((a - b) * (a - b) < 1 / 10 ^ 8)
def loggedAs (i : Inst) (stored : Rat) (c : List (String × Nat × Nat × Rat)) (rest : List String) : Bool :=
  match logged i with
  | some (s, c', r) => near s stored && c'.length == c.length && r == rest &&
      (c'.zip c).all (fun (a, b) => a.1 == b.1 && a.2.1 == b.2.1 && a.2.2.1 == b.2.2.1 && near a.2.2.2 b.2.2.2)
  | none => false

def twoBins : PyVal := pyConts [("c_a", 25, 25), ("c_b", 25, 20)]
def one : PyVal := pyConts [("container_0", 60, 30)]
def workers (n : Nat) : PyVal := .dict [(.str "workers_num", .int n)]
def areaWide : List Op := [.sortItems (some (.str "area", true)), .orientItems (.str "wide")]

def longRuns : List (String × Bool) :=
  let remaining := ["i_4", "i_6", "i_9", "i_26", "i_12", "i_13", "i_8", "i_14", "i_17", "i_27", "i_21"]
  let full (i : Inst) := obj i == some 1 && loggedAs i 100 [("container_0", 60, 30, 100)] []
  let bins (i : Inst) := obj i == some (1688 / 1000) &&
    loggedAs i (607143 / 10000) [("c_a", 25, 25, 9936 / 100), ("c_b", 25, 20, 992 / 10)] remaining
  let none2 (i : Inst) := obj i == some 0 && loggedAs i 0 [("c-0", 1, 1, 0), ("c-1", 1, 1, 0)] ["i-0"]
  let small := fun n ops => run (pyConts [("c-0", 1, 1), ("c-1", 1, 1)]) (pyItems [("i-0", 2, 2)]) (workers n) .none ops
  let throttle (n : Nat) : Option (List Nat) :=
    ((get (mkInst env (pyConts [("cont-0", 1, 1)]) (its (List.replicate n (2, 2))) .none .none)).localSearch
      Arith.exact (fun _ => 0) 0 true).toOption.map (fun r => r.2.log.map (·.processed))
  let s := run .none (pyItems c3a) .none (.int 60) [stripStrategy, local_]
  let s28 := runOps Arith.exact s [.height (.int 28), .solve none]
  let s28' := runOps Arith.exact s28 [local_]
  let s32 := runOps Arith.exact { run .none (pyItems c3a) .none (.int 60) [stripStrategy] with minHeight := some 32 } [local_]
  let s55 := runOps Arith.exact { s32 with height := some 111, minHeight := some 55 } [local_]
  -- equality of Python dictionaries does not look at the order
  let same (a b : Solution) := a.length == b.length && (a.zip b).all (fun (c, d) =>
    c.1 == d.1 && c.2.length == d.2.length && c.2.all (fun q => d.2.contains q))
  let count (i : Inst) := i.solution.map (fun c => c.2.length)
  [("test_local_search.py test_max_value_AND_logging",
      full (run one (pyItems c3a) (workers 1) .none
        (.strategy (tup ["A", "A_", "B_", "C", "B", "D", "A__", "B__", "F", "E"]) :: areaWide ++ [local_]))),
   ("test_local_search.py test_two_bins_AND_logging",
      let i := run twoBins (pyItems c3a) (workers 1) .none [local_]
      obj i == some (16852 / 10000) && loggedAs i (678571 / 10000) [("c_a", 25, 25, 9936 / 100), ("c_b", 25, 20, 988 / 10)]
        ["i_10", "i_11", "i_16", "i_19", "i_20", "i_24", "i_25", "i_26", "i_27"]),
   ("test_local_search.py test_throttle", throttle 73 == some [2500] && throttle 70 == some [2415]),
   ("test_hypersearch_sp.py test_non_exhaustive_max_obj_value",
      full (run one (pyItems c3a) .none .none (areaWide ++ [hyper (fun _ => false)]))),
   ("test_hypersearch_sp.py test_two_bins_solution",
      bins (run twoBins (pyItems c3a) .none .none [hyper (fun _ => false)])),
   ("test_hypersearch_mp.py test_two_bins_AND_logging",
      bins (run twoBins (pyItems c3a) (workers 2) .none [hyper (fun _ => false)])),
   ("test_hypersearch_mp.py test_non_exhaustive_max_obj_value_AND_logging",
      full (run one (pyItems c3a) (workers 2) .none (areaWide ++ [hyper (fun _ => false)]))),
   ("test_hypersearch_mp.py test_no_solution_AND_logging", none2 (small 2 [hyper (fun _ => false)])),
   ("test_hypersearch_mp.py test_force_error_on_first_process_AND_logging", none2 (small 2 [hyper (· == 0)])),
   ("test_hypersearch_mp.py test_all_processes_fail",
      (step Arith.exact (small 2 []) (hyper (fun _ => true))).2 == .raised (.multiProcessError "ALL_PROCESSES_FAILED")),
   ("test_strip_local_search.py test_container_min_height_None",
      s.height == some 34 && s.heights == [600, 38, 37, 36, 35, 34] && height s stripId == some 34 && count s == [28] &&
      s28'.height == some 28 && s28'.heights == [28] && height s28' stripId == some 28 && same s28'.solution s28.solution),
   ("test_strip_local_search.py test_container_min_height_not_None",
      s32.height == some 33 && height s32 stripId == some 33 && count s32 != [28] &&
      s55.height == some 55 && s55.minHeight == some 55 && height s55 stripId == some 55 && count s55 == [28]),
   ("test_strip_local_search.py test_log_solution", loggedAs s 100 [(stripId, 60, 34, 882353 / 10000)] []),
   ("test_strip_solving.py test_solving_container_height",
      let i := run .none (pyItems c3a) .none (.int 60) [stripStrategy, .height (.int 20), .solve none]
      let j := runOps Arith.exact i [.height (.int 1), .solve none]
      (match height i stripId with | some h => decide (h ≤ 20) | none => false) &&
      j.solution == [(stripId, [])] && height j stripId == some 0)]

end HP.ConformanceRuns
