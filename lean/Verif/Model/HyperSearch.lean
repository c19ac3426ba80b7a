import Verif.Model.ItemsManip
import Verif.Model.LocalSearch
/-
Model of `get_strategies` and of the single process hypersearch: heuristics.py 424-490, 565-634.
-/
namespace HP

/-- STRATEGIES_SUFFIX, heuristics.py 354 -/
def strategiesSuffix : List PClass := [.A__, .B__, .F, .E]

/-- STRATEGIES_SUFFIX_STRIPACK, heuristics.py 355 -/
def strategiesSuffixStrip : List PClass := [.B__, .A__, .F, .E]

/-- DEFAULT_POTENTIAL_POINTS_STRATEGY_POOL, constants.py 3-7 -/
def strategyPool : List (List PClass) :=
  [[.A, .A_, .B_, .C, .B, .D, .A__, .B__, .F, .E],
   [.A, .A_, .B_, .C, .B, .D, .A__, .B__, .F, .E]]

/-- every element of a list, in order, with the others -/
def picks {α : Type} : List α → List (α × List α)
  | [] => []
  | a :: l => (a, l) :: (picks l).map (fun p => (p.1, a :: p.2))

/-- `itertools.permutations(l, n)`: by position, in lexicographic order of positions -/
def permsOf {α : Type} : Nat → List α → List (List α)
  | 0, _ => [[]]
  | n + 1, l => (picks l).flatMap (fun p => (permsOf n p.2).map (p.1 :: ·))

/-- `get_strategies(_exhaustive)`, heuristics.py 439-459.  `order` lists the elements of a set
(given as a list without repetitions) in the unspecified order in which Python iterates over it. -/
def getStrategies (order : List PClass → List PClass) (strip exhaustive : Bool) :
    List (List PClass) :=
  let suffixes := if strip then strategiesSuffixStrip else strategiesSuffix
  if exhaustive then
    let points := order (defaultStrategy.filter (fun c => !suffixes.contains c))
    (permsOf points.length points).map (· ++ strategiesSuffix)
  else strategyPool

/-- variables of `_single_process_hypersearch` -/
structure HSState where
  inst : Inst
  best : Rat
  retained : Solution × ObjVals
  bestStrategy : List PClass
  /-- number of `time()` readings so far -/
  tick : Nat
  /-- the strategies tried so far, each with the value its local search ended with (not a
  variable of the code; the debug log shows them) -/
  tried : List (List PClass × Rat)

/-- `_check_solution`, heuristics.py 424-428 -/
def checkSolution (new best : Rat) : Bool := decide (new > best)

/-- `time() - start_time > max_time_in_seconds`, heuristics.py 487, processes.py 110 -/
def outOfTime (A : Arith) (now start : Rat) (maxTime : Int) : Bool :=
  decide (A.sub now start > (maxTime : Rat))

/-- One pass of the loop of `_single_process_hypersearch`, heuristics.py 470-489; the second
component tells whether the loop is left. -/
def hsStep (A : Arith) (clock : Nat → Rat) (start : Rat) (throttle : Bool)
    (strategy : List PClass) (s : HSState) : Except PyErr (HSState × Bool) := do
  let i := { s.inst with strategy := strategy }
  let r ← i.localSearch A (fun k => clock (s.tick + k)) start throttle
  let j := r.1
  let v ← j.calcObj A
  let tick := s.tick + r.2.tick
  let tried := s.tried ++ [(strategy, v)]
  let late := outOfTime A (clock tick) start j.maxTime
  if checkSolution v s.best then do
    let sol ← j.getSolution
    let s' : HSState := ⟨j, v, sol, strategy, tick, tried⟩
    if globalCheck v optimumObjVal then return (s', true)
    else return ({ s' with tick := tick + 1 }, late)
  else return ({ s with inst := j, tick := tick + 1, tried := tried }, late)

/-- the loop of `_single_process_hypersearch`, heuristics.py 470-489 -/
def hsLoop (A : Arith) (clock : Nat → Rat) (start : Rat) (throttle : Bool) :
    List (List PClass) → HSState → Except PyErr HSState
  | [], s => .ok s
  | st :: rest, s => do
    let r ← hsStep A clock start throttle st s
    if r.2 then return r.1 else hsLoop A clock start throttle rest r.1

/-- `_single_process_hypersearch`, heuristics.py 461-490 (the final state of its variables) -/
def Inst.singleHS (A : Arith) (clock : Nat → Rat) (start : Rat) (throttle : Bool)
    (strategies : List (List PClass)) (i : Inst) : Except PyErr HSState := do
  let r ← i.initSolution A
  let best ← r.1.calcObj A
  hsLoop A clock start throttle strategies ⟨r.1, best, r.2, defaultStrategy, 0, []⟩

/-- the assignment of the result, heuristics.py 625-631 -/
def HSState.finish (s : HSState) : Inst :=
  { s.inst with solution := s.retained.1, objVals := s.retained.2,
                bestStrategy := some (some s.bestStrategy) }

/-- `self._workers_num == 1` -/
def PyVal.isOne : PyVal → Bool
  | .bool b => b
  | .int i => i == 1
  | .float q => q == 1
  | _ => false

end HP
