import Verif.Model.State
/-
Model of hyperpack/abstract.py (AbstractLocalSearch) and of LocalSearchMixin.local_search
(mixins.py 1169-1218).
-/
namespace HP

/-- The operations an `AbstractLocalSearch` implementation provides (abstract.py 21-66 and
the hook `extra_node_operations` of 161-162): `σ` is the object, `ρ` the retained solution. -/
structure LSOps (σ ρ : Type) where
  /-- `get_init_solution` -/
  init : σ → Except PyErr (σ × ρ)
  /-- `evaluate_node(sequence)` -/
  evaluate : List String → σ → Except PyErr σ
  /-- `calculate_obj_value` -/
  objVal : σ → Except PyErr Rat
  /-- `compare_node(new_obj_value, best_obj_value)` -/
  compare : σ → Rat → Rat → Except PyErr Bool
  /-- `get_solution` -/
  getSol : σ → Except PyErr ρ
  /-- `extra_node_operations` -/
  extra : σ → Except PyErr σ

/-- MAX_NEIGHBORS_THROTTLE, abstract.py 17, heuristics.py 345 -/
def maxNeighborsThrottle : Nat := 2500

/-- `get_max_neighbors_num`, abstract.py 37-43.  `n * (n - 1) / 2` is a whole number, exact
as a float for `n` below 2^26. -/
def maxNeighbors (throttle : Bool) (n : Nat) : Nat :=
  let m := n * (n - 1) / 2
  if throttle && decide (m > maxNeighborsThrottle) then maxNeighborsThrottle else m

/-- `get_optimum_objective_val`, abstract.py 45-54, for OPTIMIZATION = "MAX": `none` is
`float("inf")` -/
def optimumObjVal : Option Rat := none

/-- `global_check`, abstract.py 56-60, for OPTIMIZATION = "MAX" -/
def globalCheck (value : Rat) : Option Rat → Bool
  | none => false
  | some opt => decide (value ≥ opt)

/-- `list(combinations(range(n), 2))`, abstract.py 114 -/
def indexSwaps (n : Nat) : List (Nat × Nat) :=
  (List.range n).flatMap (fun i => (List.range' (i + 1) (n - 1 - i)).map (fun j => (i, j)))

/-- copy of the sequence with two entries exchanged, abstract.py 138-142 -/
def swapSeq (xs : List String) (i j : Nat) : Except PyErr (List String) := do
  let a ← pyGet xs i
  let b ← pyGet xs j
  let xs ← pySet xs i b
  pySet xs j a

/-- Parameters of one local search: arithmetic, the readings of `time()` (`clock k` is the
k-th reading of this search), start time and limit. -/
structure LSParams where
  ar : Arith
  clock : Nat → Rat
  start : Rat
  maxTime : Int

/-- `time() - start_time >= max_time_in_seconds` at reading `k`, abstract.py 169 -/
def LSParams.late (C : LSParams) (k : Nat) : Bool :=
  decide (C.ar.sub (C.clock k) C.start ≥ (C.maxTime : Rat))

/-- what `debug_local_search` logs for a node, abstract.py 68-92, 177-185 -/
structure NodeLog where
  best : Rat
  processed : Nat
  outOfTime : Bool
  found : Bool
  globalOpt : Bool
  deriving DecidableEq, Repr

/-- local variables of `local_search` -/
structure LSState (σ ρ : Type) where
  obj : σ
  node : List String
  best : Rat
  retained : ρ
  /-- number of `time()` readings so far -/
  tick : Nat
  /-- one entry per node, as `debug_local_search` reports it -/
  log : List NodeLog

/-- The body of the `for swap in index_swaps` loop, abstract.py 134-173, from the swap list
still to do; `k` is `processed_neighbors`.  Returns the state and the node's log entry.
`node_sequence` is only changed right before a `break`, so `s.node` is the node. -/
def lsScan {σ ρ : Type} (O : LSOps σ ρ) (C : LSParams) (maxN : Nat) :
    List (Nat × Nat) → Nat → LSState σ ρ → Except PyErr (LSState σ ρ × NodeLog)
  | [], k, s => .ok (s, ⟨s.best, k, false, false, false⟩)
  | (i, j) :: swaps, k, s => do
    let cur ← swapSeq s.node i j                                   -- 135-142
    let obj ← O.evaluate cur s.obj                                 -- 146
    let v ← O.objVal obj                                           -- 147
    let accept ← O.compare obj v s.best                            -- 152
    let s' ← (if accept then do                                    -- 153-162
        let r ← O.getSol obj
        let obj ← O.extra obj
        return { s with obj := obj, node := cur, best := v, retained := r }
      else return { s with obj := obj })
    let glob := accept && globalCheck s'.best optimumObjVal        -- 166
    let late := C.late s'.tick                                     -- 169
    let s' := { s' with tick := s'.tick + 1 }
    if late || accept || glob || decide (k + 1 ≥ maxN) then        -- 170-173
      return (s', ⟨s'.best, k + 1, late, accept, glob⟩)
    else lsScan O C maxN swaps (k + 1) s'

/-- The `while continue_criterion` loop, abstract.py 121-188, with fuel. -/
def lsLoop {σ ρ : Type} (O : LSOps σ ρ) (C : LSParams) (maxN : Nat) (swaps : List (Nat × Nat)) :
    Nat → LSState σ ρ → Except PyErr (LSState σ ρ)
  | 0, _ => .error .outOfFuel
  | fuel + 1, s => do
    let r ← lsScan O C maxN swaps 0 s
    let s' := { r.1 with log := r.1.log ++ [r.2] }
    if r.2.found && !r.2.outOfTime && !r.2.globalOpt then lsLoop O C maxN swaps fuel s'   -- 188
    else return s'

/-- `AbstractLocalSearch.local_search`, abstract.py 94-191 (the final state; the returned
value is its `retained`). -/
def lsRun {σ ρ : Type} (O : LSOps σ ρ) (C : LSParams) (fuel : Nat) (seq : List String)
    (throttle : Bool) (obj : σ) : Except PyErr (LSState σ ρ) := do
  let r ← O.init obj
  let best ← O.objVal r.1
  lsLoop O C (maxNeighbors throttle seq.length) (indexSwaps seq.length) fuel
    ⟨r.1, seq, best, r.2, 0, []⟩

/-- the operations of `LocalSearchMixin`, mixins.py 1097-1166 -/
def instOps (A : Arith) : LSOps Inst (Solution × ObjVals) where
  init i := i.initSolution A
  evaluate seq i := i.solve A (some seq)
  objVal i := i.calcObj A
  compare i new best := i.compareNode new best
  getSol i := i.getSolution
  extra i := i.extraNode

/-- factorial -/
def fact : Nat → Nat
  | 0 => 1
  | n + 1 => (n + 1) * fact n

/-- a number of nodes that is proved sufficient (`C18_terminates`): every accepted node has
a new (sequence, container height) pair -/
def lsFuel (i : Inst) : Nat :=
  fact i.items.length * (max (i.height.getD 0) (i.minHeight.getD 0) + 1) + 2

/-- `LocalSearchMixin.local_search`, mixins.py 1169-1218, started at `start`
(`time.time()` or the hypersearch's start time).  Also returns the final search state. -/
def Inst.localSearch (A : Arith) (clock : Nat → Rat) (start : Rat) (throttle : Bool) (i : Inst) :
    Except PyErr (Inst × LSState Inst (Solution × ObjVals)) := do
  let i := if i.strip then { i with heights := [i.height.getD 0] } else i      -- 1205-1206
  let s ← lsRun (instOps A) ⟨A, clock, start, i.maxTime⟩ (lsFuel i) (PyDict.keys i.items) throttle i
  return ({ s.obj with solution := s.retained.1, objVals := s.retained.2 }, s) -- 1218

end HP
