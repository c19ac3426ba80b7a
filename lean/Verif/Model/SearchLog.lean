import Verif.Model.MultiProcess
/-
Model of what `hypersearch()` with one worker logs: DEBUG records (heuristics.py 461-490, 633-634; mixins.py 1197-1204).
-/
namespace HP

/-- One record of `hypersearch`, with the value that its text shows. -/
inductive HyperLine where
  /-- "Solving with single core", heuristics.py 462 -/
  | singleCore
  /-- "\t\tCURRENT POTENTIAL POINTS STRATEGY: {self._potential_points_strategy}", mixins.py 1201-1204 -/
  | strategy (st : List PClass)
  /-- "\tNew best solution: {best_obj_value}\n", heuristics.py 481 -/
  | newBest (v : Rat)
  /-- "Terminating due to max objective value obtained", heuristics.py 484 -/
  | maxValue
  /-- "Terminating due to surpassed max time", heuristics.py 488 -/
  | surpassed
  /-- "Execution time : {total_time} [sec]", heuristics.py 634 -/
  | elapsed (t : Rat)
  deriving DecidableEq, Repr

/-- One pass of the loop of `_single_process_hypersearch`, heuristics.py 470-489, with its records.  It is `hsStep`, with the
calls of `hyperLogger.debug` (`hsStepLog_step` shows that it does the same). -/
def hsStepLog (A : Arith) (clock : Nat → Rat) (start : Rat) (throttle : Bool) (strategy : List PClass) (s : HSState) :
    Except PyErr (HSState × List HyperLine × Bool) := do
  let i := { s.inst with strategy := strategy }                                       -- 472
  let r ← i.localSearch A (fun k => clock (s.tick + k)) start throttle                -- 474
  let lines := [HyperLine.strategy i.strategy]                                        -- mixins.py 1201-1204
  let j := r.1
  let v ← j.calcObj A                                                                 -- 475
  let tick := s.tick + r.2.tick
  let tried := s.tried ++ [(strategy, v)]
  let late := outOfTime A (clock tick) start j.maxTime
  if checkSolution v s.best then do                                                   -- 477
    let sol ← j.getSolution                                                           -- 479
    let s' : HSState := ⟨j, v, sol, strategy, tick, tried⟩
    let lines := lines ++ [.newBest s'.best]                                          -- 481
    if globalCheck v optimumObjVal then return (s', lines ++ [.maxValue], true)       -- 483-485
    else return ({ s' with tick := tick + 1 }, if late then lines ++ [.surpassed] else lines, late)   -- 487-489
  else return ({ s with inst := j, tick := tick + 1, tried := tried }, if late then lines ++ [.surpassed] else lines, late)

/-- the loop of `_single_process_hypersearch`, heuristics.py 470-489, with its records -/
def hsLoopLog (A : Arith) (clock : Nat → Rat) (start : Rat) (throttle : Bool) :
    List (List PClass) → HSState → Except PyErr (HSState × List HyperLine)
  | [], s => .ok (s, [])
  | st :: rest, s => do
    let r ← hsStepLog A clock start throttle st s
    if r.2.2 then return (r.1, r.2.1)
    else do
      let r' ← hsLoopLog A clock start throttle rest r.1
      return (r'.1, r.2.1 ++ r'.2)

/-- `_single_process_hypersearch`, heuristics.py 461-490, with its records -/
def Inst.singleLog (A : Arith) (clock : Nat → Rat) (start : Rat) (throttle : Bool)
    (strategies : List (List PClass)) (i : Inst) : Except PyErr (HSState × List HyperLine) := do
  let r ← i.initSolution A
  let best ← r.1.calcObj A
  let r' ← hsLoopLog A clock start throttle strategies ⟨r.1, best, r.2, defaultStrategy, 0, []⟩
  return (r'.1, .singleCore :: r'.2)

/-- The DEBUG records of the search part of `hypersearch()` with one worker, heuristics.py 616-634: those of the search, whose
readings of the clock come after the one of line 612, and the time from that one to the one of line 633.  Simplified: the
records behind a search that raises (none of a valid problem does, C27) are not given. -/
def Inst.searchLog (A : Arith) (clock : Nat → Rat) (throttle : Bool) (strategies : List (List PClass)) (i : Inst) :
    List HyperLine :=
  match i.singleLog A (fun k => clock (k + 1)) (clock 0) throttle strategies with
  | .ok r => r.2 ++ [.elapsed (A.sub (clock (r.1.tick + 1)) (clock 0))]
  | .error _ => []

/-- The DEBUG record of `_multi_process_hypersearch`, heuristics.py 552-555, with the values its text shows: the index of the
winning process (its name is `hypersearch_{index}`), `win_metrics[0]` and `win_metrics[3]`.  `none`: it is not reached. -/
structure WinLine where
  process : Nat
  value : Rat
  strategy : Option (List PClass)
  deriving DecidableEq

/-- what is logged by the parent once the workers will do nothing more, heuristics.py 524-555; compare `mpFinish` -/
def mpWinLog (i : Inst) (s : MPState) : Option WinLine :=
  if !s.phases.all Phase.ended then none                                    -- 524-525
  else
    match arrayMax s.arr with                                               -- 527-530
    | none => none
    | some m =>
      if m = -1 then none                                                   -- 530-531
      else
        let k := firstIdx m s.arr                                           -- 538-540
        match (s.phases[k]?).bind Phase.message with                        -- 541
        | none => none
        | some msg =>
          match i.deepcopySolution msg.sol with                             -- 543
          | .error _ => none
          | .ok _ => some ⟨k, msg.value, msg.strategy⟩                      -- 552-555

/-- the record of `_multi_process_hypersearch`, heuristics.py 492-563; compare `Inst.multiHS` -/
def Inst.winLog (E : Env) (M : MPParams) (strategies : List (List PClass))
    (schedule : List (Nat × MPEvent)) (i : Inst) : Option WinLine :=
  match strategyChunks strategies i.workers with
  | .error _ => none
  | .ok chunks =>
    match workerInst E i with
    | .error _ => none
    | .ok w => mpWinLog i (mpRun M w chunks schedule)

end HP
