import Verif.Model.MultiProcess
import Verif.Model.Report
/-
The public operations of a `HyperPack` object as a state machine, and its reachable states.
-/
namespace HP

/-- how a call ends: it returns, raises, or never comes back -/
inductive Outcome where
  | ok
  | raised (e : PyErr)
  | blocked
  deriving DecidableEq, Repr

/-- arguments of `hypersearch` and what it depends on -/
structure HSArgs where
  orientation : PyVal
  sortingBy : Option (PyVal × Bool)
  throttle : Bool
  exhaustive : Bool
  /-- iteration order of a set: some order of its elements -/
  order : List PClass → List PClass
  orderPerm : ∀ l : List PClass, l.Nodup → (order l).Perm l
  /-- readings of `time()` in the calling process -/
  clock : Nat → Rat
  /-- see `Env`, `MPParams` -/
  env : Env
  workerClock : Nat → Nat → Rat
  force : Nat → Bool
  fits : Msg → Bool
  schedule : List (Nat × MPEvent)

/-- parameters of the worker processes -/
def HSArgs.mp (A : Arith) (h : HSArgs) : MPParams :=
  ⟨A, h.clock 0, h.throttle, h.workerClock, h.force, h.fits⟩

/-- the search part of `hypersearch`, heuristics.py 616-631.  An exception inside the single
process search would leave parts of its effects behind; this is not modelled, because no
exception occurs (`C27_total`). -/
def Inst.search (A : Arith) (h : HSArgs) (i : Inst) : Inst × Outcome :=
  let strategies := getStrategies h.order i.strip h.exhaustive
  if i.workers.isOne then
    match i.singleHS A (fun k => h.clock (k + 1)) (h.clock 0) h.throttle strategies with
    | .ok s => (s.finish, .ok)
    | .error e => (i, .raised e)
  else
    match i.multiHS h.env (h.mp A) strategies h.schedule with
    | .returned sol ov st => ({ i with solution := sol, objVals := ov, bestStrategy := some st }, .ok)
    | .raised e => (i, .raised e)
    | .blocked => (i, .blocked)

/-- `hypersearch(orientation, sorting_by, throttle=, _exhaustive=, _force_raise_error_index=)`,
heuristics.py 565-634 -/
def Inst.hypersearch (A : Arith) (h : HSArgs) (i : Inst) : Inst × Outcome :=
  match i.sortItems A h.sortingBy with
  | (i, .error e) => (i, .raised e)
  | (i, .ok ()) =>
    match i.orientItems h.orientation with
    | (i, .error e) => (i, .raised e)
    | (i, .ok ()) => i.search A h

/-- the operations a user can call on the object, its `items` and its `containers` -/
inductive Op where
  /-- `problem.items = v`, `problem.containers = v` -/
  | assign (k : SKind) (v : PyVal)
  /-- `problem.items[id] = v` -/
  | setKey (k : SKind) (id v : PyVal)
  /-- `del problem.items[key]` -/
  | delKey (k : SKind) (key : PyVal)
  /-- `problem.items[id][key] = v` -/
  | setDim (k : SKind) (id key v : PyVal)
  /-- `del problem.items[id][key]` -/
  | delDim (k : SKind) (id : PyVal)
  /-- `problem.items.pop(key)`, with or without a default -/
  | popKey (k : SKind) (key : PyVal) (hasDefault : Bool)
  /-- `problem.items.popitem()` -/
  | popItem (k : SKind)
  /-- `problem.items.clear()` -/
  | clear (k : SKind)
  /-- `problem.items.update(dict)` -/
  | update (k : SKind) (entries : List (PyVal × PyVal))
  /-- `problem.items[id].update(dict)` -/
  | updateDim (k : SKind) (id : PyVal) (entries : List (PyVal × PyVal))
  /-- `problem.items.setdefault(key, v)` -/
  | setDefault (k : SKind) (key v : PyVal)
  /-- `del problem.items` etc. -/
  | delAttr (e : PyErr)
  /-- `problem.container_height = v` -/
  | height (v : PyVal)
  /-- `problem.container_min_height = v` -/
  | minHeight (v : PyVal)
  /-- `problem.reset_container_height()` -/
  | resetHeight
  /-- `problem.potential_points_strategy = v` -/
  | strategy (v : PyVal)
  /-- `problem.settings = v` -/
  | settings (E : Env) (v : PyVal)
  /-- changes of the settings dict in place, without validation -/
  | editSettings (v : PyVal)
  /-- `problem.validate_settings()` -/
  | validate (E : Env)
  /-- `problem.solve(sequence)` -/
  | solve (sequence : Option (List String))
  /-- `problem.local_search(throttle=throttle)` with the readings of `time()` -/
  | localSearch (clock : Nat → Rat) (throttle : Bool)
  /-- `problem.sort_items(sorting_by)` -/
  | sortItems (sortingBy : Option (PyVal × Bool))
  /-- `problem.orient_items(orientation)` -/
  | orientItems (orientation : PyVal)
  /-- `problem.hypersearch(...)` -/
  | hypersearch (h : HSArgs)
  /-- `problem.log_solution()` -/
  | log
  /-- `problem.create_figure(show)` -/
  | figure (writes : String → String → Bool) (show_ : Bool)

/-- from `Except` to `Outcome` -/
def Outcome.of {α : Type} : Except PyErr α → Outcome
  | .ok _ => .ok
  | .error e => .raised e

/-- a call whose effect and outcome are known -/
def outcomeOf (r : Inst × Except PyErr Unit) : Inst × Outcome := (r.1, .of r.2)

/-- One call.  `del problem.items` and the other deleters raise without an effect, heuristics.py
115-117, 132-134, 153-155, 173-175, 283-285, 312-314. -/
def step (A : Arith) (i : Inst) : Op → Inst × Outcome
  | .assign k v => outcomeOf (i.assign k v)
  | .setKey k id v => outcomeOf (i.setKey k id v)
  | .delKey k key => outcomeOf (i.delKey k key)
  | .setDim k id key v => outcomeOf (i.setDim k id key v)
  | .delDim k id => outcomeOf (i.delDim k id)
  | .popKey k key d => outcomeOf (i.popKey k key d)
  | .popItem k => outcomeOf (i.popItem k)
  | .clear k => outcomeOf (i.clear k)
  | .update k es => outcomeOf (i.update k es)
  | .updateDim k id es => outcomeOf (i.updateDim k id es)
  | .setDefault k key v => outcomeOf (i.setDefault k key v)
  | .delAttr e => (i, .raised e)
  | .height v => outcomeOf (i.assignHeight v)
  | .minHeight v => outcomeOf (i.assignMinHeight v)
  | .resetHeight => outcomeOf i.resetHeight
  | .strategy v => outcomeOf (i.assignStrategy v)
  | .settings E v => outcomeOf (i.assignSettings E v)
  | .editSettings v => ({ i with settings := v }, .ok)
  | .validate E => outcomeOf (i.validateSettings E)
  | .solve seq =>
    match i.solve A seq with
    | .ok j => (j, .ok)
    | .error e => (i, .raised e)
  | .localSearch clock throttle =>
    -- heuristics: the start time is the first reading, mixins.py 1197-1198
    match i.localSearch A (fun k => clock (k + 1)) (clock 0) throttle with
    | .ok (j, _) => (j, .ok)
    | .error e => (i, .raised e)
  | .sortItems s => outcomeOf (i.sortItems A s)
  | .orientItems o => outcomeOf (i.orientItems o)
  | .hypersearch h => i.hypersearch A h
  | .log => (i, .of i.logSolution)
  | .figure writes show_ => (i, .of (i.createFigure writes show_))

/-- a history: the instance after a list of calls -/
def runOps (A : Arith) (i : Inst) (ops : List Op) : Inst :=
  ops.foldl (fun i o => (step A i o).1) i

/-- the instances that can be reached from a constructed one -/
inductive Reach (A : Arith) : Inst → Prop where
  | new {E : Env} {containers items settings stripWidth : PyVal} {i : Inst} :
      mkInst E containers items settings stripWidth = .ok i → Reach A i
  | step {i : Inst} (o : Op) : Reach A i → Reach A (step A i o).1

/-! ### Not part of the operations above -/

/-- `d |= other` as `UserDict.__ior__` does it: entries are written to `data` without
`__setitem__` (Python standard library); entries of `data` as raw values -/
def rawIor (data other : List (PyVal × PyVal)) : List (PyVal × PyVal) :=
  other.foldl (fun d e =>
    match e.1.asStr? with
    | some s => setEntry d s e.2
    | none => d ++ [e]) data

/-- `problem.items |= other` (and `containers`) for a dict `other`: `UserDict.__ior__` has written
to `data`, then the setter gets the structure itself, which is not a `dict`, and raises
(heuristics.py 111-113, 125-130, structures.py 145-146).  The result is the content of the
structure afterwards (entries as plain dicts) and the exception; the instance is otherwise
unchanged. -/
def Inst.ior (k : SKind) (other : List (PyVal × PyVal)) (i : Inst) : PyVal × PyErr :=
  (.dict (rawIor ((i.data k).map (fun p => (.str p.1, k.encode p.2))) other),
    if k = .containers && i.strip then .containersError "STRIP_PACK_ONLY" else k.error "TYPE")

/-- `problem.items[id] |= other` (and `containers`) for an existing id of the size `d` and a dict `other`:
`UserDict.__ior__` of the size writes to its `data`, then `__setitem__` of the structure gets the `Dimensions` object itself,
which is not a `dict`, and raises (structures.py 158-174, 60-61).  The result is the content of the size afterwards and the
exception; the instance is otherwise unchanged. -/
def Inst.iorSize (k : SKind) (d : Dim) (other : List (PyVal × PyVal)) (i : Inst) : PyVal × PyErr :=
  (.dict (rawIor [(.str k.width, .int d.w), (.str k.length, .int d.l)] other),
    if k = .containers && i.strip then .containersError "STRIP_PACK_ONLY" else .dimensionsError "DIMENSIONS_TYPE")

end HP
