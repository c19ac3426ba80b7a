import Verif.Model.Objective
import Verif.Model.HyperSearch
/-
`local_search` and the single process `hypersearch` of a subclass of `HyperPack` that overrides `calculate_objective_value`
(mixins.py 69, 490-498).  All other methods are inherited; the overriding function is only reached through `_solve`.
(With several workers the subclass plays no role: `HyperSearchProcess` creates plain `HyperPack` objects, processes.py 57.)
-/
namespace HP

/-- `solve(sequence)` of the subclass, heuristics.py 263-270 -/
def Inst.solveO (A : Arith) (V : Objective) (i : Inst) (seq : Option (List String)) : Except PyErr Inst := do
  let r ← HP.solveO A V i.solveIn seq
  return { i with solution := r.1, objVals := r.2 }

/-- `get_init_solution()` of the subclass, mixins.py 1125-1130 -/
def Inst.initSolutionO (A : Arith) (V : Objective) (i : Inst) : Except PyErr (Inst × (Solution × ObjVals)) := do
  let i ← i.solveO A V none
  let r ← i.getSolution
  return (i, r)

/-- the operations of `LocalSearchMixin` in the subclass, mixins.py 1097-1166 -/
def instOpsO (A : Arith) (V : Objective) : LSOps Inst (Solution × ObjVals) where
  init i := i.initSolutionO A V
  evaluate seq i := i.solveO A V (some seq)
  objVal i := i.calcObj A
  compare i new best := i.compareNode new best
  getSol i := i.getSolution
  extra i := i.extraNode

/-- `local_search` of the subclass, mixins.py 1169-1218 -/
def Inst.localSearchO (A : Arith) (V : Objective) (clock : Nat → Rat) (start : Rat) (throttle : Bool) (i : Inst) :
    Except PyErr (Inst × LSState Inst (Solution × ObjVals)) := do
  let i := if i.strip then { i with heights := [i.height.getD 0] } else i      -- 1205-1206
  let s ← lsRun (instOpsO A V) ⟨A, clock, start, i.maxTime⟩ (lsFuel i) (PyDict.keys i.items) throttle i
  return ({ s.obj with solution := s.retained.1, objVals := s.retained.2 }, s) -- 1218

/-- one pass of the loop of `_single_process_hypersearch` of the subclass, heuristics.py 470-489 -/
def hsStepO (A : Arith) (V : Objective) (clock : Nat → Rat) (start : Rat) (throttle : Bool)
    (strategy : List PClass) (s : HSState) : Except PyErr (HSState × Bool) := do
  let i := { s.inst with strategy := strategy }
  let r ← i.localSearchO A V (fun k => clock (s.tick + k)) start throttle
  let j := r.1
  let v ← j.calcObj A
  let tick := s.tick + r.2.tick
  let tried := s.tried ++ [(strategy, v)]
  let late := outOfTime A (clock tick) start j.maxTime
  if checkSolution v s.best then do
    let sol ← j.getSolution
    let s' : HSState := ⟨j, v, sol, strategy, tick, tried⟩
    if globalCheck v optimumObjVal then return (s', true)
    else return ({ s' with tick := tick + 1 }, late)
  else return ({ s with inst := j, tick := tick + 1, tried := tried }, late)

/-- the loop of `_single_process_hypersearch`, heuristics.py 470-489 -/
def hsLoopO (A : Arith) (V : Objective) (clock : Nat → Rat) (start : Rat) (throttle : Bool) :
    List (List PClass) → HSState → Except PyErr HSState
  | [], s => .ok s
  | st :: rest, s => do
    let r ← hsStepO A V clock start throttle st s
    if r.2 then return r.1 else hsLoopO A V clock start throttle rest r.1

/-- `_single_process_hypersearch` of the subclass, heuristics.py 461-490 -/
def Inst.singleHSO (A : Arith) (V : Objective) (clock : Nat → Rat) (start : Rat) (throttle : Bool)
    (strategies : List (List PClass)) (i : Inst) : Except PyErr HSState := do
  let r ← i.initSolutionO A V
  let best ← r.1.calcObj A
  hsLoopO A V clock start throttle strategies ⟨r.1, best, r.2, defaultStrategy, 0, []⟩

end HP
