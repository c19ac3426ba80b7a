import Verif.Model.LocalSearch
/-
Model of hyperpack/abstract.py in general: the class `AbstractLocalSearch` for an arbitrary subclass, with
both directions of optimization, all hooks and all overridable methods.  (`Verif.Model.LocalSearch` models its
use by `HyperPack`; `ALS.C91_hyperpack` shows that the two agree.)
-/
namespace HP.ALS

/-- Python floats, as exact numbers: the objective values -/
inductive Num where
  | ninf
  | fin (q : Rat)
  | inf
  | nan
  deriving DecidableEq, Repr

/-- `a < b` for floats.  Language semantics. -/
def Num.lt : Num → Num → Bool
  | .nan, _ => false
  | _, .nan => false
  | .inf, _ => false
  | _, .ninf => false
  | .ninf, _ => true
  | _, .inf => true
  | .fin a, .fin b => decide (a < b)

/-- `a <= b` for floats.  Language semantics. -/
def Num.le : Num → Num → Bool
  | .nan, _ => false
  | _, .nan => false
  | .ninf, _ => true
  | _, .inf => true
  | .inf, _ => false
  | _, .ninf => false
  | .fin a, .fin b => decide (a ≤ b)

/-- A subclass of `AbstractLocalSearch`: `σ` is the state of the object, `ρ` what it calls a solution, `α` the
elements of sequences.  `none` means that the subclass does not override the method, or has no such hook.
Simplification: `calculate_obj_value`, `compare_node`, `get_solution`, `get_optimum_objective_val` and
`global_check` may raise but do not change the object; `global_check` and `get_max_neighbors_num` are not
overridden. -/
structure Cls (σ ρ α : Type) where
  /-- class attribute `OPTIMIZATION`, abstract.py 14 -/
  optimization : String
  /-- class attribute `MAX_NEIGHBORS_THROTTLE`, abstract.py 17 -/
  throttleMax : Nat
  /-- class attribute `OPT_NUM`, abstract.py 18 -/
  optNum : Nat
  /-- `get_init_solution`, abstract.py 21-23 -/
  init : σ → Except PyErr (σ × ρ)
  /-- `calculate_obj_value`, abstract.py 25-27 -/
  objVal : σ → Except PyErr Num
  /-- `get_solution`, abstract.py 29-31 -/
  getSol : σ → Except PyErr ρ
  /-- `evaluate_node`, abstract.py 33-35 -/
  evaluate : List α → σ → Except PyErr σ
  /-- override of `get_optimum_objective_val`, abstract.py 45-54 -/
  optimum : Option (σ → Except PyErr Num)
  /-- override of `compare_node`, abstract.py 62-66 -/
  compare : Option (σ → Num → Num → Except PyErr Bool)
  /-- hook `init_operations`, abstract.py 118-119 -/
  initOps : Option (σ → Except PyErr σ)
  /-- hook `extra_node_operations`, abstract.py 158-159 -/
  extraOps : Option (σ → Except PyErr σ)

variable {σ ρ α : Type}

/-- `get_max_neighbors_num`, abstract.py 37-43 -/
def Cls.maxNeighbors (C : Cls σ ρ α) (throttle : Bool) (n : Nat) : Nat :=
  let m := n * (n - 1) / 2
  if throttle && decide (m > C.throttleMax) then C.throttleMax else m

/-- `get_optimum_objective_val`, abstract.py 45-54 -/
def Cls.getOptimum (C : Cls σ ρ α) (s : σ) : Except PyErr Num :=
  match C.optimum with
  | some f => f s
  | none =>
    if C.optimization = "MAX" then .ok .inf
    else if C.optimization = "MIN" then .ok .ninf
    else .error .valueError

/-- `global_check`, abstract.py 56-60 -/
def Cls.globalCheck (C : Cls σ ρ α) (value optimum : Num) : Bool :=
  if C.optimization = "MAX" then optimum.le value else value.le optimum

/-- `compare_node`, abstract.py 62-66 -/
def Cls.compareNode (C : Cls σ ρ α) (s : σ) (new best : Num) : Except PyErr Bool :=
  match C.compare with
  | some f => f s new best
  | none => .ok (if C.optimization = "MAX" then best.lt new else new.lt best)

/-- a hook that may be missing: `if hasattr(self, ...)`, abstract.py 118-119, 158-159 -/
def hook (f : Option (σ → Except PyErr σ)) (s : σ) : Except PyErr σ :=
  match f with
  | some f => f s
  | none => .ok s

/-- `combinations(l, k)` of itertools: subsequences of length `k`, in lexicographic order of positions.
Language semantics. -/
def combinations : Nat → List Nat → List (List Nat)
  | 0, _ => [[]]
  | _ + 1, [] => []
  | k + 1, a :: l => (combinations k l).map (a :: ·) ++ combinations (k + 1) l

/-- copy of the sequence with two entries exchanged, abstract.py 138-142 -/
def swapSeq (xs : List α) (i j : Nat) : Except PyErr (List α) := do
  let a ← pyGet xs i
  let b ← pyGet xs j
  let xs ← pySet xs i b
  pySet xs j a

/-- local variables of `local_search` -/
structure State (σ ρ α : Type) where
  obj : σ
  node : List α
  best : Num
  retained : ρ
  /-- number of `time()` readings so far -/
  tick : Nat
  /-- one entry per node, as `debug_local_search` reports it: best value, processed neighbours, out of time,
  neighbour found, global optimum -/
  log : List (Num × Nat × Bool × Bool × Bool)

/-- The body of the `for swap in index_swaps` loop, abstract.py 134-173, from the swaps still to do; `k` is
`processed_neighbors`; `late n` is the test of abstract.py 169 at the n-th reading of the clock. -/
def scan (C : Cls σ ρ α) (late : Nat → Bool) (opt : Num) (maxN : Nat) :
    List (List Nat) → Nat → State σ ρ α → Except PyErr (State σ ρ α × (Num × Nat × Bool × Bool × Bool))
  | [], k, s => .ok (s, (s.best, k, false, false, false))
  | sw :: swaps, k, s => do
    let (i, j) ← (match sw with                                     -- 135
      | [i, j] => Except.ok (i, j)
      | _ => .error .valueError)
    let cur ← swapSeq s.node i j                                    -- 138-142
    let obj ← C.evaluate cur s.obj                                  -- 146
    let v ← C.objVal obj                                            -- 147
    let accept ← C.compareNode obj v s.best                         -- 152
    let s' ← (if accept then do                                     -- 153-162
        let r ← C.getSol obj
        let obj ← hook C.extraOps obj
        return { s with obj := obj, node := cur, best := v, retained := r }
      else return { s with obj := obj })
    let glob := accept && C.globalCheck s'.best opt                 -- 166
    let isLate := late s'.tick                                      -- 169
    let s' := { s' with tick := s'.tick + 1 }
    if isLate || accept || glob || decide (k + 1 ≥ maxN) then       -- 170-173
      return (s', (s'.best, k + 1, isLate, accept, glob))
    else scan C late opt maxN swaps (k + 1) s'

/-- The `while continue_criterion` loop, abstract.py 121-188, with fuel. -/
def loop (C : Cls σ ρ α) (late : Nat → Bool) (opt : Num) (maxN : Nat) (swaps : List (List Nat)) :
    Nat → State σ ρ α → Except PyErr (State σ ρ α)
  | 0, _ => .error .outOfFuel
  | fuel + 1, s => do
    let r ← scan C late opt maxN swaps 0 s
    let s' := { r.1 with log := r.1.log ++ [r.2] }
    if r.2.2.2.2.1 && !r.2.2.2.1 && !r.2.2.2.2.2 then loop C late opt maxN swaps fuel s'    -- 188
    else return s'

/-- `AbstractLocalSearch.local_search(init_sequence, throttle, start_time, max_time_in_seconds)`,
abstract.py 94-191: the final state; the returned value is its `retained`. -/
def run (C : Cls σ ρ α) (late : Nat → Bool) (fuel : Nat) (seq : List α) (throttle : Bool) (obj : σ) :
    Except PyErr (State σ ρ α) := do
  let r ← C.init obj                                                -- 103
  let best ← C.objVal r.1                                           -- 104
  let opt ← C.getOptimum r.1                                        -- 105
  let obj ← hook C.initOps r.1                                      -- 118-119
  loop C late opt (C.maxNeighbors throttle seq.length) (combinations C.optNum (List.range seq.length)) fuel
    ⟨obj, seq, best, r.2, 0, []⟩

/-- `HyperPack` as a subclass: `LocalSearchMixin`, mixins.py 1090-1166, with the attributes of
heuristics.py 345 and abstract.py 14-18 -/
def hyperPack (A : Arith) : Cls Inst (Solution × ObjVals) String where
  optimization := "MAX"
  throttleMax := 2500
  optNum := 2
  init i := i.initSolution A
  objVal i := (i.calcObj A).map .fin
  getSol i := i.getSolution
  evaluate seq i := i.solve A (some seq)
  optimum := none
  compare := some (fun i new best =>
    match new, best with
    | .fin a, .fin b => i.compareNode a b
    | _, _ => .error .typeError)
  initOps := none
  extraOps := some (fun i => i.extraNode)

end HP.ALS
